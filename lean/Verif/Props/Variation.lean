import Verif.Proofs.VariationOps
import Verif.Proofs.RoundedEval
import Verif.Proofs.Affine
import Mathlib.Data.Sign.Basic

/-! # Properties: a spline changes its sign no more often than its control points -/

namespace Bezman.Props
open Spec

/-! ## C108, in any arithmetic that keeps signs -/

section generic
variable {K V : Type} [Zero K] [One K] [Neg K] [Sub K] [Mul K] [Div K] [NatCast K] [LT K] [DecidableLT K] [Zero V] [Add V] [SMul K V]
variable {sg : V → SignType}

/-- C108. `SplitAtPosition`: the control points of the two parts together, read from left to right along any row in the direction of the
split, change their sign no more often than those of the spline: wherever they alternate, the control points of the spline alternate too,
with the same signs. -/
theorem C108_split (hk : KeepsSigns K sg) (s : Spline V) (hs : s.WF) (d : ℕ) (z : K) (a b : Spline V) (e : s.splitAt z d = .ok (a, b))
    (idx : List ℕ) (l la lb : List V) (hl : RowOf s d idx l) (ha : RowOf a d idx la) (hb : RowOf b d idx lb) : Calmer sg (la ++ lb) l :=
  row_split hk hs hl.choose_spec.1 e hl ha hb

/-- C108. `OrderElevateAlongParametricDimension`: the same for the control points of the result. -/
theorem C108_elevate (hk : KeepsSigns K sg) (s : Spline V) (hs : s.WF) (d : ℕ) (hsz : size (s.degrees.modify d (· + 1)) < 2 ^ 31)
    (r : Spline V) (e : Spline.orderElevate K s d = .ok r) (idx : List ℕ) (l lr : List V) (hl : RowOf s d idx l) (hr : RowOf r d idx lr) :
    Calmer sg lr l :=
  row_elevate hk hs hl.choose_spec.1 hsz e hl hr

/-- C108. Any number of splits and elevations, each of any of the pieces made so far: the control points of all pieces together change
their sign no more often than those of the spline they were made from. -/
theorem C108_history (hk : KeepsSigns K sg) (s : Spline V) (hs : s.WF) (d : ℕ) (pieces : List (Spline V)) (h : PiecesAlong K s d pieces)
    (idx : List ℕ) (l : List V) (hl : RowOf s d idx l) (rows : List (List V))
    (hr : List.Forall₂ (fun a la => RowOf a d idx la) pieces rows) : Calmer sg rows.flatten l :=
  pieces_calmer hk h hs hl rows hr

omit [Zero K] [One K] [Neg K] [Sub K] [Mul K] [Div K] [NatCast K] [LT K] [DecidableLT K] [Zero V] [Add V] [SMul K V] in
/-- C108, in numbers: calmer control points have at most as many changes of sign. -/
theorem C108_count (l' l : List V) (h : Calmer sg l' l) : signChanges (l'.map sg) ≤ signChanges (l.map sg) := h.signChanges_le

omit [Zero K] [One K] [Neg K] [Sub K] [Mul K] [Div K] [NatCast K] [LT K] [DecidableLT K] [SMul K V] in
/-- C108. Each direction and each index of a spline has such a row; the control points of a curve are one. -/
theorem C108_rows (s : Spline V) (hs : s.WF) :
    (∀ d p idx, s.degrees[d]? = some p → ValidIdx s.degrees (idx.set d 0) → ∃ l, RowOf s d idx l) ∧
      ∀ p, s.degrees = [p] → RowOf s 0 [0] s.cps :=
  ⟨fun _ _ _ hp hv => rowOf_exists hs hp hv, fun _ h => rowOf_cps hs h⟩

end generic

/-! ## C108, exact arithmetic: the side of a hyperplane -/

theorem amid_of {V K : Type} [Zero K] [LinearOrder K] (f : V → K) (a c b : V) (h1 : 0 ≤ f a → 0 ≤ f b → 0 ≤ f c)
    (h2 : f a ≤ 0 → f b ≤ 0 → f c ≤ 0) : Amid (fun x => SignType.sign (f x)) a c b := by
  unfold Amid
  rcases lt_trichotomy (f a) 0 with ha | ha | ha <;> rcases lt_trichotomy (f b) 0 with hb | hb | hb <;>
    rcases lt_trichotomy (f c) 0 with hc | hc | hc <;> simp_all [sign_neg, sign_pos, not_lt_of_gt, not_le_of_gt, le_of_lt]

section exact
variable {K V : Type} [Field K] [LinearOrder K] [IsStrictOrderedRing K] [AddCommGroup V] [Module K V]

theorem affine_lerp (φ : V →ᵃ[K] K) (z : K) (a b : V) : φ ((1 - z) • a + z • b) = (1 - z) * φ a + z * φ b := by
  have := Convex.combo_affine_apply (f := φ) (x := a) (y := b) (a := 1 - z) (b := z) (by ring)
  simpa using this

/-- C108. In exact arithmetic the sides of any plane are kept: so by the theorems above the control polygons of the pieces cross no plane
more often than the control polygon of the spline. -/
theorem C108_exact (φ : V →ᵃ[K] K) : KeepsSigns K (side φ) := by
  have key : ∀ z : K, 0 ≤ z → z ≤ 1 → ∀ a b : V, Amid (side φ) a ((1 - z) • a + z • b) b := by
    intro z h0 h1 a b
    refine amid_of φ _ _ _ (fun ha hb => ?_) fun ha hb => ?_ <;> rw [affine_lerp]
    · have := mul_nonneg (sub_nonneg.mpr h1) ha
      have := mul_nonneg h0 hb
      linarith
    · have := mul_nonneg (sub_nonneg.mpr h1) (neg_nonneg.mpr ha)
      have := mul_nonneg h0 (neg_nonneg.mpr hb)
      linarith
  refine ⟨fun z h0 h1 => key z h0.le h1.le, fun p i _ hi _ => key _ (by positivity) ?_⟩
  rw [mul_one_div, div_le_one (by positivity)]
  exact_mod_cast Nat.le_succ_of_le hi

theorem ends_calmer {sg : V → SignType} {s : Spline V} {p : ℕ} {f : List K → V} (hs : s.Computes [p] f) : Calmer sg [f [0], f [1]] s.cps := by
  have hrow := (rowOf_iff (p := p) (idx := [0]) (by rw [hs.degrees_eq]; rfl) (by rw [hs.degrees_eq]; exact .cons (Nat.zero_le _) .nil)
    (show HasPoints s s.cp from hasPoints_self hs.wf)).mp (rowOf_cps hs.wf hs.degrees_eq)
  have hc : ∀ b : Bool, s.cp [if b then p else 0] = f [if b then 1 else 0] := by
    intro b
    obtain ⟨x, h1, h2⟩ := C10_corners (K := K) s hs.wf [b] (by rw [hs.dim_eq]; rfl)
    have h3 := hs.eval [if b then 1 else 0] rfl
    rw [Spline.controlPoint_cp hs.wf (by
      rw [hs.degrees_eq]; refine .cons ?_ .nil; cases b <;> simp)] at h2
    have h4 : s.evaluate [if b then (1 : K) else 0] = .ok x := h1
    rw [h3] at h4
    rw [Except.ok.inj h4, ← Except.ok.inj h2, hs.degrees_eq]
    rfl
  have h0 : s.cp [0] = f [0] := by simpa using hc false
  have h1 : s.cp [p] = f [1] := by simpa using hc true
  rw [hrow, ← h0, ← h1]
  cases p with
  | zero => simpa using Calmer.twice (s.cp [0])
  | succ n =>
    refine Calmer.of_sublist ?_
    rw [List.range_succ_eq_map, List.map_cons, List.range_succ]
    simp

theorem values_calmer {sg : V → SignType} (hk : KeepsSigns K sg) (ts : List K) (h01 : ∀ t ∈ ts, 0 ≤ t ∧ t ≤ 1) (hts : ts.Pairwise (· ≤ ·))
    (s : Spline V) (p : ℕ) (f : List K → V) (hs : s.Computes [p] f) :
    Calmer sg (f [0] :: ts.map (fun t => f [t]) ++ [f [1]]) s.cps := by
  obtain ⟨n, hn⟩ : ∃ n, n = ts.length := ⟨_, rfl⟩
  induction n generalizing ts s f with
  | zero =>
    rw [List.length_eq_zero_iff.mp hn.symm]
    exact ends_calmer hs
  | succ n ih =>
    match ts, hn with
    | t :: ts, hn =>
      have hn' : n = ts.length := by simpa using hn
      rw [List.pairwise_cons] at hts
      have h0 := (h01 t List.mem_cons_self).1
      have h1 := (h01 t List.mem_cons_self).2
      have h01' : ∀ t' ∈ ts, 0 ≤ t' ∧ t' ≤ 1 := fun t' ht' => h01 t' (List.mem_cons_of_mem _ ht')
      rcases h0.lt_or_eq with h0 | h0
      · rcases h1.lt_or_eq with h1 | h1
        · obtain ⟨a, b, e, ca, cb⟩ := C31_split s [p] f hs 0 (by simp) t h0 h1
          have ha := (Calmer.of_sublist (sg := sg) (a := [f [0]]) (b := [f [0], f [t]]) (by simp)).trans (by
            have := ends_calmer (sg := sg) ca
            simpa using this)
          have hb := ih (ts.map fun u => (u - t) / (1 - t)) (by
              intro u hu
              obtain ⟨v, hv, rfl⟩ := List.mem_map.mp hu
              exact ⟨div_nonneg (sub_nonneg.mpr (hts.1 v hv)) (by linarith),
                (div_le_one (by linarith)).mpr (by linarith [(h01' v hv).2])⟩)
            (by
              rw [List.pairwise_map]
              exact hts.2.imp fun h => div_le_div_of_nonneg_right (by linarith) (by linarith)) b _ cb (by simpa using hn')
          have hr := row_split hk hs.wf (p := p) (by rw [hs.degrees_eq]; rfl) e (rowOf_cps hs.wf hs.degrees_eq)
            (rowOf_cps ca.wf ca.degrees_eq) (rowOf_cps cb.wf cb.degrees_eq)
          refine Calmer.trans ?_ hr
          have h1' : 1 - t ≠ 0 := by linarith
          have e0 : f ([(0 : K)].modify 0 fun x => t + (1 - t) * x) = f [t] := by
            show f [t + (1 - t) * 0] = _
            rw [mul_zero, add_zero]
          have e1 : f ([(1 : K)].modify 0 fun x => t + (1 - t) * x) = f [1] := by
            show f [t + (1 - t) * 1] = _
            rw [mul_one, add_sub_cancel]
          have e2 : List.map (fun t_1 => f ([t_1].modify 0 fun x => t + (1 - t) * x)) (List.map (fun u => (u - t) / (1 - t)) ts) =
              ts.map fun t => f [t] := by
            rw [List.map_map]
            apply List.map_congr_left
            intro u _
            show f [t + (1 - t) * ((u - t) / (1 - t))] = _
            rw [mul_div_cancel₀ _ h1', add_sub_cancel]
          rw [e0, e1, e2] at hb
          exact ha.append hb
        · -- t = 1
          have hall : ∀ u ∈ ts, u = 1 := fun u hu => le_antisymm (h01' u hu).2 (h1 ▸ hts.1 u hu)
          have hrep : ts = List.replicate ts.length 1 := List.eq_replicate_iff.mpr ⟨rfl, hall⟩
          have ih' := ih ts h01' hts.2 s f hs hn'
          refine Calmer.trans ?_ ih'
          rw [h1, hrep]
          generalize ts.length = m
          have e1 : ∀ m : ℕ, List.map (fun t => f [t]) (List.replicate m (1 : K)) ++ [f [1]] = f [1] :: List.replicate m (f [1]) := by
            intro m
            rw [List.map_replicate, ← List.replicate_succ', List.replicate_succ]
          rw [List.map_cons]
          show Calmer sg (f [0] :: f [1] :: (List.map (fun t => f [t]) (List.replicate m (1 : K)) ++ [f [1]])) (f [0] ::
            (List.map (fun t => f [t]) (List.replicate m (1 : K)) ++ [f [1]]))
          rw [e1]
          have := ((Calmer.refl (sg := sg) [f [0]]).append (Calmer.twice (f [1]))).append (Calmer.refl (sg := sg) (List.replicate m (f [1])))
          simpa using this
      · have ih' := ih ts h01' hts.2 s f hs hn'
        refine Calmer.trans ?_ ih'
        rw [← h0]
        have := (Calmer.twice (sg := sg) (f [0])).append (Calmer.refl (sg := sg) (ts.map (fun t => f [t]) ++ [f [1]]))
        simpa using this

/-- C108. A curve crosses no plane more often than its control polygon: the values `Evaluate` returns at any parameters in the unit
interval, from left to right, change their side of a plane no more often than the control points do. -/
theorem C108_values (φ : V →ᵃ[K] K) (s : Spline V) (hs : s.WF) (hd : s.dim = 1) (ts : List K) (h01 : ∀ t ∈ ts, 0 ≤ t ∧ t ≤ 1)
    (hts : ts.Pairwise (· ≤ ·)) (xs : List V) (hx : List.Forall₂ (fun t x => s.evaluate [t] = .ok x) ts xs) :
    Calmer (side φ) xs s.cps := by
  obtain ⟨p, hp⟩ : ∃ p, s.degrees = [p] := List.length_eq_one_iff.mp hd
  have hc : s.Computes [p] (s.value : List K → V) := hp ▸ hs.computes (K := K)
  have e : xs = ts.map fun t => s.value [t] := by
    clear hts h01
    induction hx with
    | nil => rfl
    | cons h _ ih =>
      rw [List.map_cons, ← ih]
      rw [hc.eval _ rfl] at h
      rw [Except.ok.inj h]
  rw [e]
  refine Calmer.trans (Calmer.of_sublist ?_) (values_calmer (C108_exact φ) ts h01 hts s p _ hc)
  exact (List.sublist_append_left _ _).trans (List.Sublist.cons _ (List.Sublist.refl _) |>.append (List.Sublist.refl _))

/-- C108. If the control points of a scalar curve increase from left to right, so do its values. -/
theorem C108_monotone (s : Spline K) (hs : s.WF) (hd : s.dim = 1) (hm : s.cps.Pairwise (· ≤ ·)) (t u : K) (h0 : 0 ≤ t) (htu : t ≤ u)
    (h1 : u ≤ 1) : ∃ x y, s.evaluate [t] = .ok x ∧ s.evaluate [u] = .ok y ∧ x ≤ y := by
  obtain ⟨p, hp⟩ : ∃ p, s.degrees = [p] := List.length_eq_one_iff.mp hd
  have hc : s.Computes [p] (s.value : List K → K) := hp ▸ hs.computes (K := K)
  refine ⟨_, _, hc.eval [t] rfl, hc.eval [u] rfl, ?_⟩
  by_contra hlt
  push Not at hlt
  obtain ⟨c, hc1, hc2⟩ := exists_between hlt
  have := C108_values (AffineMap.id K K - AffineMap.const K K c) s hs hd [t, u] (by
    simp only [List.mem_cons, List.not_mem_nil, or_false, forall_eq_or_imp, forall_eq]
    exact ⟨⟨h0, htu.trans h1⟩, h0.trans htu, h1⟩) (by simpa using htu) _ (.cons (hc.eval [t] rfl) (.cons (hc.eval [u] rfl) .nil)) [1, -1]
    ⟨by decide, by simp⟩ ⟨_, List.Sublist.refl _, by
      show [SignType.sign (s.value [t] - c), SignType.sign (s.value [u] - c)] = _
      rw [sign_pos (sub_pos.mpr hc2), sign_neg (sub_neg.mpr hc1)]⟩
  obtain ⟨l, h2, h3⟩ := this
  match l, h2, h3 with
  | [], _, h3 => cases h3
  | [_], _, h3 => simp at h3
  | _ :: _ :: _ :: _, _, h3 => simp at h3
  | [a, b], h2, h3 =>
    simp only [List.map_cons, List.map_nil, side, List.cons.injEq, and_true] at h3
    have ha := sign_eq_one_iff.mp h3.1
    have hb := sign_eq_neg_one_iff.mp h3.2
    have hab : a ≤ b := by simpa using hm.sublist h2
    change 0 < a - c at ha
    change b - c < 0 at hb
    linarith

theorem value_curve (s : Spline V) {p : ℕ} (hp : s.degrees = [p]) (t : K) :
    s.value [t] = ∑ i ∈ Finset.range (p + 1), bern p i t • s.cps.getD i 0 := by
  unfold Spline.value
  rw [hp]
  simp [bezier, flatIndex]

theorem bern_linear (n : ℕ) (t : K) : ∑ i ∈ Finset.range (n + 2), bern (n + 1) i t * ((i : K) / ((n + 1 : ℕ) : K)) = t := by
  have hn : ((n + 1 : ℕ) : K) ≠ 0 := by exact_mod_cast Nat.succ_ne_zero n
  rw [Finset.sum_range_succ']
  have : ∀ i ∈ Finset.range (n + 1), bern (n + 1) (i + 1) t * (((i + 1 : ℕ) : K) / ((n + 1 : ℕ) : K)) = t * bern n i t := by
    intro i _
    have h : ((n + 1 : ℕ) : K) * (n.choose i : K) = ((n + 1).choose (i + 1) : K) * ((i + 1 : ℕ) : K) := by
      exact_mod_cast Nat.add_one_mul_choose_eq n i
    rw [← mul_div_assoc, div_eq_iff hn, bern, bern, Nat.add_sub_add_right]
    linear_combination (-(t ^ (i + 1) * (1 - t) ^ (n - i))) * h
  rw [Finset.sum_congr rfl this, ← Finset.mul_sum, bern_sum]
  simp

theorem graph_computes (s : Spline K) (hs : s.WF) {p : ℕ} (hp : s.degrees = [p + 1]) :
    (⟨[p + 1], p + 2, [1], graphPoints s (p + 1)⟩ : Spline (K × K)).Computes [p + 1] (fun t : List K => (t.headD 0, s.value t)) := by
  refine Spline.Computes.mk' ⟨Nat.zero_lt_succ _, by simp [size], by simp [offsetsOf], by simp [graphPoints, size]⟩ rfl fun t ht => ?_
  match t, ht with
  | [t], _ =>
    rw [value_curve _ (p := p + 1) rfl]
    have e : ∀ i ∈ Finset.range (p + 2), bern (p + 1) i t • (graphPoints s (p + 1)).getD i 0 =
        (bern (p + 1) i t * ((i : K) / ((p + 1 : ℕ) : K)), bern (p + 1) i t • s.cps.getD i 0) := by
      intro i hi
      have : (graphPoints s (p + 1)).getD i 0 = ((i : K) / ((p + 1 : ℕ) : K), s.cps.getD i 0) := by
        rw [List.getD_eq_getElem?_getD, graphPoints, List.getElem?_map, List.getElem?_range (Finset.mem_range.mp hi)]; rfl
      rw [this]; rfl
    show ∑ i ∈ Finset.range (p + 2), bern (p + 1) i t • (graphPoints s (p + 1)).getD i 0 = _
    rw [Finset.sum_congr rfl e]
    refine Prod.ext ?_ ?_
    · rw [Prod.fst_sum]; exact bern_linear p t
    · rw [Prod.snd_sum, value_curve s hp]

/-- `y - (α + β x)` -/
def lineMap (α β : K) : K × K →ᵃ[K] K where
  toFun x := x.2 - (α + β * x.1)
  linear := LinearMap.snd K K K - β • LinearMap.fst K K K
  map_vadd' x v := by simp; ring

/-- C108. The graph of a scalar curve crosses no line more often than its control polygon, whose vertices are the control points over
equally spaced abscissae. -/
theorem C108_graph (α β : K) (s : Spline K) (hs : s.WF) (p : ℕ) (hp : s.degrees = [p]) (hp0 : 0 < p) (ts : List K)
    (h01 : ∀ t ∈ ts, 0 ≤ t ∧ t ≤ 1) (hts : ts.Pairwise (· ≤ ·)) (xs : List K)
    (hx : List.Forall₂ (fun t x => s.evaluate [t] = .ok x) ts xs) :
    Calmer (aboveLine α β) (ts.zip xs) (graphPoints s p) := by
  obtain ⟨p, rfl⟩ : ∃ q, p = q + 1 := ⟨p - 1, by omega⟩
  have hg := graph_computes s hs hp
  have hc : s.Computes [p + 1] (s.value : List K → K) := hp ▸ hs.computes (K := K)
  refine C108_values (lineMap α β) _ hg.wf (by rw [hg.dim_eq]; rfl) ts h01 hts (ts.zip xs) ?_
  clear hts h01
  induction hx with
  | nil => exact .nil
  | cons h _ ih =>
    refine .cons ?_ ih
    rw [hc.eval _ rfl] at h
    rw [hg.eval _ rfl, Except.ok.inj h]
    rfl

theorem convex_between {d : ℕ → K} {p : ℕ} (hd : ∀ i, i + 2 ≤ p → 2 * d (i + 1) ≤ d i + d (i + 2)) {i j k : ℕ} (hij : i ≤ j) (hjk : j ≤ k)
    (hk : k ≤ p) : d j ≤ d i ∨ d j ≤ d k := by
  have up : ∀ j, j + 1 ≤ p → d j ≤ d (j + 1) → ∀ k, j ≤ k → k ≤ p → d j ≤ d k ∧ (k + 1 ≤ p → d k ≤ d (k + 1)) := by
    intro j hj h k hjk
    induction k, hjk using Nat.le_induction with
    | base => exact fun _ => ⟨le_refl _, fun _ => h⟩
    | succ k hk ih =>
      intro hp
      obtain ⟨h1, h2⟩ := ih (by omega)
      have h2 := h2 hp
      exact ⟨h1.trans h2, fun h3 => by linarith [hd k h3]⟩
  have : d j ≤ d i ∨ (j + 1 ≤ p → d j ≤ d (j + 1)) := by
    induction j, hij using Nat.le_induction with
    | base => exact .inl (le_refl _)
    | succ j hj ih =>
      rcases ih (by omega) with h | h
      · by_cases h' : d (j + 1) ≤ d j
        · exact .inl (h'.trans h)
        · exact .inr fun h3 => by linarith [hd j h3]
      · exact .inr fun h3 => by linarith [hd j h3, h (by omega)]
  rcases this with h | h
  · exact .inl h
  · rcases hjk.lt_or_eq with h' | rfl
    · exact .inr (up j (by omega) (h (by omega)) k hjk hk).1
    · exact .inr (le_refl _)

/-- C108. If the control points of a scalar curve are convex, so is the curve: between two of its points it stays below the chord. -/
theorem C108_convex (s : Spline K) (hs : s.WF) (p : ℕ) (hp : s.degrees = [p])
    (hcv : ∀ i x y z, s.controlPoint [i] = .ok x → s.controlPoint [i + 1] = .ok y → s.controlPoint [i + 2] = .ok z → i + 2 ≤ p →
      2 * y ≤ x + z)
    (t u : K) (h0 : 0 ≤ t) (htu : t ≤ u) (h1 : u ≤ 1) (c : K) (hc0 : 0 ≤ c) (hc1 : c ≤ 1) :
    ∃ x y z, s.evaluate [t] = .ok x ∧ s.evaluate [u] = .ok y ∧ s.evaluate [(1 - c) * t + c * u] = .ok z ∧ z ≤ (1 - c) * x + c * y := by
  have hc : s.Computes [p] (s.value : List K → K) := hp ▸ hs.computes (K := K)
  refine ⟨_, _, _, hc.eval [t] rfl, hc.eval [u] rfl, hc.eval _ rfl, ?_⟩
  rcases Nat.eq_zero_or_pos p with rfl | hp0
  · have : ∀ t : K, s.value [t] = s.cps.getD 0 0 := fun t => by rw [value_curve s hp]; simp [bern]
    rw [this, this, this]; linarith
  rcases htu.lt_or_eq with htu | rfl
  swap
  · rw [show (1 - c) * t + c * t = t by ring]; linarith
  set m := (1 - c) * t + c * u with hm
  by_contra hlt
  push Not at hlt
  have hu : u - t ≠ 0 := by linarith
  set β := (s.value [u] - s.value [t]) / (u - t) with hβ
  have hβ' : β * (u - t) = s.value [u] - s.value [t] := div_mul_cancel₀ _ hu
  set ε := (s.value [m] - ((1 - c) * s.value [t] + c * s.value [u])) / 2 with hε
  have hεp : 0 < ε := by rw [hε]; linarith
  set α := s.value [t] - β * t + ε with hα
  have htm : t ≤ m := by rw [hm]; nlinarith
  have hmu : m ≤ u := by rw [hm]; nlinarith
  have key := C108_graph α β s hs p hp hp0 [t, m, u] (by
      simp only [List.mem_cons, List.not_mem_nil, or_false, forall_eq_or_imp, forall_eq]
      exact ⟨⟨h0, htu.le.trans h1⟩, ⟨h0.trans htm, hmu.trans h1⟩, h0.trans htu.le, h1⟩)
    (by simp [htm, hmu, htu.le]) _ (.cons (hc.eval [t] rfl) (.cons (hc.eval [m] rfl) (.cons (hc.eval [u] rfl) .nil))) [-1, 1, -1]
    ⟨by decide, by simp⟩ ⟨_, List.Sublist.refl _, by
      show [SignType.sign (s.value [t] - (α + β * t)), SignType.sign (s.value [m] - (α + β * m)), SignType.sign (s.value [u] - (α + β * u))] = _
      rw [sign_neg (by rw [hα]; linarith), sign_pos ?_, sign_neg ?_]
      · rw [hα]; nlinarith
      · have : β * m = β * t + c * (β * (u - t)) := by rw [hm]; ring
        rw [this, hβ', hα]
        have : 2 * ε = s.value [m] - ((1 - c) * s.value [t] + c * s.value [u]) := by rw [hε]; ring
        linarith⟩
  obtain ⟨l, h2, h3⟩ := key
  obtain ⟨is, his, rfl⟩ := List.sublist_map_iff.mp h2
  have hlt : is.Pairwise (· < ·) := List.pairwise_lt_range.sublist his
  rw [List.map_map] at h3
  have hd : ∀ i, i + 2 ≤ p → 2 * s.cps.getD (i + 1) 0 ≤ s.cps.getD i 0 + s.cps.getD (i + 2) 0 := by
    intro i hi
    have hcp : ∀ j ≤ p, s.controlPoint [j] = .ok (s.cps.getD j 0) := by
      intro j hj
      rw [Spline.controlPoint_cp hs (by rw [hp]; exact .cons hj .nil), Spline.cp, hp]
      simp [flatIndex]
    exact hcv i _ _ _ (hcp i (by omega)) (hcp (i + 1) (by omega)) (hcp (i + 2) (by omega)) hi
  have hd' : ∀ i, i + 2 ≤ p → 2 * (s.cps.getD (i + 1) 0 - (α + β * (((i + 1 : ℕ) : K) / p))) ≤
      (s.cps.getD i 0 - (α + β * ((i : K) / p))) + (s.cps.getD (i + 2) 0 - (α + β * (((i + 2 : ℕ) : K) / p))) := by
    intro i hi
    have := hd i hi
    have e : β * (((i + 1 : ℕ) : K) / p) * 2 = β * ((i : K) / p) + β * (((i + 2 : ℕ) : K) / p) := by push_cast; ring
    linarith
  match is, his, hlt, h3 with
  | [], _, _, h3 => cases h3
  | [_], _, _, h3 => simp at h3
  | [_, _], _, _, h3 => simp at h3
  | _ :: _ :: _ :: _ :: _, _, _, h3 => simp at h3
  | [i, j, k], his, hlt, h3 =>
    simp only [List.map_cons, List.map_nil, aboveLine, Function.comp, List.cons.injEq, and_true] at h3
    have hi := sign_eq_neg_one_iff.mp h3.1
    have hj := sign_eq_one_iff.mp h3.2.1
    have hk := sign_eq_neg_one_iff.mp h3.2.2
    have hkp : k < p + 1 := List.mem_range.mp (his.subset (by simp))
    simp only [List.pairwise_cons, List.mem_cons, List.not_mem_nil, or_false, forall_eq_or_imp, forall_eq] at hlt
    rcases convex_between (d := fun i => s.cps.getD i 0 - (α + β * ((i : K) / p))) hd' hlt.1.1.le hlt.2.1.le (by omega) with h | h
    · exact absurd (lt_of_lt_of_le hj h) (not_lt.mpr hi.le)
    · exact absurd (lt_of_lt_of_le hj h) (not_lt.mpr hk.le)

end exact

/-! ## C108, floating-point arithmetic -/

section floats
variable {p : ℕ} {q : ℤ} {rnd : ℝ → ℝ} {n : ℕ}

theorem nonpos_rnd (h : Nearest p q rnd) {x : ℝ} (hx : x ≤ 0) : rnd x ≤ 0 := by
  have := h.mono hx
  rwa [h.zero] at this

theorem amid_floats (h : Nearest p q rnd) {t a b : ℝ} (h0 : 0 ≤ t) (h1 : t ≤ 1) :
    (0 ≤ a → 0 ≤ b → 0 ≤ rnd (rnd (rnd (1 - t) * a) + rnd (t * b))) ∧ (a ≤ 0 → b ≤ 0 → rnd (rnd (rnd (1 - t) * a) + rnd (t * b)) ≤ 0) := by
  have hc : 0 ≤ rnd (1 - t) := h.nonneg (by linarith)
  exact ⟨fun ha hb => h.nonneg (add_nonneg (h.nonneg (mul_nonneg hc ha)) (h.nonneg (mul_nonneg h0 hb))),
    fun ha hb => nonpos_rnd h (add_nonpos (nonpos_rnd h (mul_nonpos_of_nonneg_of_nonpos hc ha))
      (nonpos_rnd h (mul_nonpos_of_nonneg_of_nonpos h0 hb)))⟩

theorem elevate_factor (h : Nearest p q rnd) (hp : 0 < p) (hq : q ≤ -31 - p) {m i : ℕ} (hi : i ≤ m) (hm : m + 1 < 2 ^ 31) :
    (0 : ℝ) ≤ ((i : Rd rnd) * (1 / ((m + 1 : ℕ) : Rd rnd))).val ∧ ((i : Rd rnd) * (1 / ((m + 1 : ℕ) : Rd rnd))).val ≤ 1 := by
  refine h.ratio hp (by omega) (i := i) (n := m + 1) (by omega) (by omega) ?_
  refine le_trans ?_ (zpow_le_zpow_right₀ (by norm_num) (by omega : (31 : ℤ) ≤ 1 - q - p - 1))
  exact_mod_cast hm.le

/-- C108. With floating-point numbers the sign of a scalar is kept, whatever the rounding errors: so by the theorems above the pieces of a
scalar spline change their sign no more often than its control points. -/
theorem C108_floats (h : Nearest p q rnd) (hp : 0 < p) (hq : q ≤ -31 - p) : KeepsSigns (Rd rnd) (fun x : Rd rnd => SignType.sign x.val) := by
  have key : ∀ z : Rd rnd, 0 ≤ z.val → z.val ≤ 1 → ∀ a b : Rd rnd,
      Amid (fun x : Rd rnd => SignType.sign x.val) a ((1 - z) • a + z • b) b := by
    intro z h0 h1 a b
    obtain ⟨k1, k2⟩ := amid_floats h h0 h1 (a := a.val) (b := b.val)
    exact amid_of Rd.val _ _ _ k1 k2
  refine ⟨fun z h0 h1 => key z (le_of_lt (show (0 : ℝ) < z.val from h0)) (le_of_lt (show z.val < 1 from h1)), fun m i _ hi hm => ?_⟩
  exact key _ (elevate_factor h hp hq hi hm).1 (elevate_factor h hp hq hi hm).2

/-- C108. The same for each coordinate of points. -/
theorem C108_float_points (h : Nearest p q rnd) (hp : 0 < p) (hq : q ≤ -31 - p) (j : Fin n) :
    KeepsSigns (Rd rnd) (fun x : Point (Rd rnd) n => SignType.sign (x.val j).val) := by
  have key : ∀ z : Rd rnd, 0 ≤ z.val → z.val ≤ 1 → ∀ a b : Point (Rd rnd) n,
      Amid (fun x : Point (Rd rnd) n => SignType.sign (x.val j).val) a ((1 - z) • a + z • b) b := by
    intro z h0 h1 a b
    obtain ⟨k1, k2⟩ := amid_floats h h0 h1 (a := (a.val j).val) (b := (b.val j).val)
    have e : (((1 - z) • a + z • b : Point (Rd rnd) n).val j).val =
        rnd (rnd (rnd (1 - z.val) * (a.val j).val) + rnd (z.val * (b.val j).val)) := by
      show rnd (rnd ((a.val j).val * (1 - z : Rd rnd).val) + rnd ((b.val j).val * z.val)) = _
      rw [mul_comm (a.val j).val, mul_comm (b.val j).val]
      rfl
    exact amid_of (fun x : Point (Rd rnd) n => (x.val j).val) _ _ _ (by rw [e]; exact k1) (by rw [e]; exact k2)
  refine ⟨fun z h0 h1 => key z (le_of_lt (show (0 : ℝ) < z.val from h0)) (le_of_lt (show z.val < 1 from h1)), fun m i _ hi hm => ?_⟩
  exact key _ (elevate_factor h hp hq hi hm).1 (elevate_factor h hp hq hi hm).2

end floats

/-! ## Cases -/

section examples

/-- the identity, as affine map: the sides of zero -/
def idMap : ℚ →ᵃ[ℚ] ℚ := AffineMap.id ℚ ℚ

/-- `+ - +`: two changes of sign -/
example : signChanges ((Ex.curve (1 : ℚ) (-3) 1).cps.map (side idMap)) = 2 := by decide +kernel
example : signChanges ([1, 0, -1, -1, 0, 1, 1, 0, -1] : List SignType) = 3 := by decide +kernel

/-- A split at `1/2`: the parts have the control points `1, -1, -1` and `-1, -1, 1`. -/
example : (Ex.curve (1 : ℚ) (-3) 1).splitAt (1 / 2 : ℚ) 0 = .ok (Ex.curve 1 (-1) (-1), Ex.curve (-1) (-1) 1) := by decide +kernel
example : Calmer (side idMap) [1, -1, -1, -1, -1, 1] [1, -3, 1] :=
  C108_split (C108_exact idMap) (Ex.curve (1 : ℚ) (-3) 1) (Ex.curve_wf _ _ _) 0 (1 / 2) _ _
    (show _ = (Except.ok (Ex.curve 1 (-1) (-1), Ex.curve (-1) (-1) 1) : M _) by decide +kernel) [0] _ _ _
    ((C108_rows _ (Ex.curve_wf _ _ _)).2 2 rfl) ((C108_rows _ (Ex.curve_wf _ _ _)).2 2 rfl) ((C108_rows _ (Ex.curve_wf _ _ _)).2 2 rfl)
/-- the other way round it is not calmer -/
example : ¬ Calmer (side idMap) ([1, -1, 1] : List ℚ) [1, -1] := by
  intro h
  have := C108_count _ _ h
  exact absurd this (by decide +kernel)

/-- Pieces: elevate, then split, then elevate the right part. -/
example : ∃ a b c d, PiecesAlong ℚ (Ex.curve (1 : ℚ) (-3) 1) 0 [a, b] ∧ a = (⟨[3], 4, [1], c⟩ : Spline ℚ) ∧ b = ⟨[4], 5, [1], d⟩ :=
  ⟨_, _, [1, -1/3, -1, -1], [-1, -1, -2/3, 0, 1],
    .elevate (s' := ⟨[3], 4, [1], [1, -5/3, -5/3, 1]⟩) (by decide +kernel) (by decide +kernel)
      (.split (z := 1/2) (a := ⟨[3], 4, [1], [1, -1/3, -1, -1]⟩) (b := ⟨[3], 4, [1], [-1, -1, -1/3, 1]⟩) (l := [_]) (l' := [_]) (by decide +kernel)
        (.whole _ _) (.elevate (s' := ⟨[4], 5, [1], [-1, -1, -2/3, 0, 1]⟩) (by decide +kernel) (by decide +kernel) (.whole _ _))), rfl, rfl⟩

/-- Values at `0, 1/2, 1`: `1, -1, 1`. -/
example : TakesSigns (side idMap) (Ex.curve (1 : ℚ) (-3) 1).cps [1, -1, 1] :=
  C108_values idMap (Ex.curve (1 : ℚ) (-3) 1) (Ex.curve_wf _ _ _) rfl [0, 1 / 2, 1] (by decide +kernel) (by decide +kernel) [1, -1, 1]
    (.cons (by decide +kernel) (.cons (by decide +kernel) (.cons (by decide +kernel) .nil))) [1, -1, 1] ⟨by decide, by decide⟩
    ⟨_, List.Sublist.refl _, by decide +kernel⟩

/-- a row of a surface, in the second direction -/
example : RowOf Ex.A 1 [1, 0] [2, 1 / 2] := ⟨1, rfl, .cons (by decide) (.cons (by decide) .nil), .cons (by decide +kernel) (.cons (by decide +kernel) .nil)⟩

example : ∃ x y, (Ex.curve (1 : ℚ) 2 2).evaluate [(1/3 : ℚ)] = .ok x ∧ (Ex.curve (1 : ℚ) 2 2).evaluate [(1/2 : ℚ)] = .ok y ∧ x ≤ y :=
  C108_monotone (Ex.curve (1 : ℚ) 2 2) (Ex.curve_wf _ _ _) rfl (by decide +kernel) (1/3) (1/2) (by norm_num) (by norm_num) (by norm_num)

example : graphPoints (Ex.curve (1 : ℚ) (-3) 1) 2 = [(0, 1), (1 / 2, -3), (1, 1)] := by decide +kernel

example : ∃ x y z, (Ex.curve (1 : ℚ) (-3) 1).evaluate [(0 : ℚ)] = .ok x ∧ (Ex.curve (1 : ℚ) (-3) 1).evaluate [(1 : ℚ)] = .ok y ∧
    (Ex.curve (1 : ℚ) (-3) 1).evaluate [(1 - 1/3) * 0 + 1/3 * (1 : ℚ)] = .ok z ∧ z ≤ (1 - 1/3) * x + 1/3 * y :=
  C108_convex (Ex.curve (1 : ℚ) (-3) 1) (Ex.curve_wf _ _ _) 2 rfl (fun i x y z h1 h2 h3 hi => by
    obtain rfl : i = 0 := by omega
    have h1' : (Ex.curve (1 : ℚ) (-3) 1).controlPoint [0] = .ok 1 := by decide +kernel
    have h2' : (Ex.curve (1 : ℚ) (-3) 1).controlPoint [0 + 1] = .ok (-3) := by decide +kernel
    have h3' : (Ex.curve (1 : ℚ) (-3) 1).controlPoint [0 + 2] = .ok 1 := by decide +kernel
    cases h1.symm.trans h1'; cases h2.symm.trans h2'; cases h3.symm.trans h3'
    norm_num) 0 1 (by norm_num) (by norm_num) (by norm_num) (1/3) (by norm_num) (by norm_num)

/-- `double` -/
example : KeepsSigns (Rd (rndNear 53 (-1074))) (fun x : Rd (rndNear 53 (-1074)) => SignType.sign x.val) :=
  C108_floats (p := 53) (q := -1074) (rndNear_nearest (by norm_num) _) (by norm_num) (by norm_num)

end examples

end Bezman.Props
