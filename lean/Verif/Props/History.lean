import Verif.Props.Examples
import Verif.Proofs.History
import Verif.Proofs.Unique
import Verif.Proofs.Reject
import Verif.Proofs.SplitMany
import Verif.Proofs.DerivSpline
import Mathlib.Algebra.Order.Field.Rat
import Mathlib.Data.List.Perm.Basic

/-! # Properties: bookkeeping over histories, order elevation, equality -/

namespace Bezman.Props
open Spec

/-! ## C06: the bookkeeping invariant -/

section
variable {K V : Type} [Coords K V] [One K] [Add K] [Sub K] [Mul K] [Div K] [NatCast K] [LT K] [DecidableLT K]
  [Zero V] [Add V] [Sub V] [Neg V] [SMul K V]

/-- What a caller can observe of the bookkeeping of a spline of parametric dimension
`n`: the number of control points is the product of `degree + 1`, the vector has that
length, and offset `d` is the product of `degree + 1` over the earlier dimensions. -/
structure Bookkeeping (n : ℕ) (s : Spline V) : Prop where
  degrees : s.degrees.length = n
  number : s.ncp = (s.degrees.map (· + 1)).prod
  vector : s.cps.length = s.ncp
  offsets_len : s.offsets.length = n
  offsets : ∀ d, d < n → s.offsets[d]? = some ((s.degrees.take d).map (· + 1)).prod

omit [Zero V] [Add V] [Sub V] [Neg V] in
theorem bookkeeping_of_wf {s : Spline V} (h : s.WF) : Bookkeeping s.dim s :=
  ⟨rfl, h.ncp_eq, h.cps_len.trans h.ncp_eq.symm, h.off_len, fun _ hd => h.off hd⟩

/-- C06. Degrees given: after construction and any sequence of mutators. -/
theorem C06_history_degrees (cfg : Cfg) (degrees : List ℕ) (h : 0 < degrees.length) (ms : List (Mutator K V))
    (ht : ∀ m ∈ ms, m.Typed degrees.length) (s : Spline V)
    (hr : (Spline.ofDegrees degrees >>= fun s => runHistory cfg s ms) = .ok s) : Bookkeeping degrees.length s := by
  obtain ⟨s0, h0, hr⟩ := bind_eq_ok.mp hr
  obtain ⟨s1, h1, w1, d1, _⟩ := Spline.ofDegrees_ok (V := V) h
  rw [h1] at h0
  injection h0 with h0
  subst h0
  obtain ⟨w, hd⟩ := Spline.runHistory_wf ms w1 (by rw [Spline.dim, d1]; exact ht) hr
  have := bookkeeping_of_wf w
  rwa [hd, Spline.dim, d1] at this

/-- C06. Degrees and control points given (the constructor asserts the right number
of points). -/
theorem C06_history_points (cfg : Cfg) (degrees : List ℕ) (h : 0 < degrees.length) (points : List V)
    (ms : List (Mutator K V)) (ht : ∀ m ∈ ms, m.Typed degrees.length) (s : Spline V)
    (hr : (Spline.ofPoints degrees points >>= fun s => runHistory cfg s ms) = .ok s) :
    Bookkeeping degrees.length s := by
  obtain ⟨s0, h0, hr⟩ := bind_eq_ok.mp hr
  by_cases hl : points.length = size degrees
  · rw [(Spline.ofPoints_ok h hl).1] at h0
    injection h0 with h0
    obtain ⟨w, hd⟩ := Spline.runHistory_wf ms (s := s0) (by rw [← h0]; exact (Spline.ofPoints_ok h hl).2)
      (by rw [← h0]; exact ht) hr
    have := bookkeeping_of_wf w
    rw [hd, ← h0] at this
    exact this
  · rw [Spline.ofPoints_assert h hl] at h0; cases h0

/-- C06. Default construction, then `UpdateDegrees`, then any sequence. (The default
constructed spline itself has zero control points and does not satisfy the claim.) -/
theorem C06_history_default (cfg : Cfg) (n : ℕ) (hn : 0 < n) (degrees : List ℕ) (ms : List (Mutator K V))
    (ht : ∀ m ∈ Mutator.updateDegrees degrees :: ms, m.Typed n) (s : Spline V)
    (hr : runHistory cfg (Spline.default n) (Mutator.updateDegrees (K := K) degrees :: ms) = .ok s) :
    Bookkeeping n s := by
  obtain ⟨s0, h0, hr⟩ := bind_eq_ok.mp hr
  have hdl : degrees.length = n := ht (.updateDegrees degrees) (by simp)
  obtain ⟨w, hd⟩ := Spline.updateDegrees_wf hn (by simp [Spline.default]) hdl h0
  obtain ⟨w', hd'⟩ := Spline.runHistory_wf ms w
    (by rw [Spline.dim, hd, hdl]; exact fun m hm => ht m (by simp [hm])) hr
  have := bookkeeping_of_wf w'
  rwa [hd', Spline.dim, hd, hdl] at this

/-- C06. The default constructed spline violates the claim. -/
theorem C06_default_violates (n : ℕ) : ¬ Bookkeeping n (Spline.default n : Spline V) := by
  intro h
  have := h.number
  have hp : 0 < size (Spline.default n : Spline V).degrees := size_pos _
  rw [show ((Spline.default n : Spline V).degrees.map (· + 1)).prod = size (Spline.default n : Spline V).degrees from rfl,
    show (Spline.default n : Spline V).ncp = 0 from rfl] at this
  omega

omit [Coords K V] [Mul K] [Div K] [NatCast K] [LT K] [DecidableLT K] [Zero V] [Sub V] [Neg V] in
/-- C06. What a caller sees of a default constructed spline: it has no control points,
all degrees are zero, `GlobalToLocalIndex` returns the first index whatever the others
are, and `LocalToGlobalIndex` (which divides by an index offset of zero), reading a
control point and `Evaluate` (which read the first of no control points) are undefined
behaviour. -/
theorem C06_default_use (n : ℕ) (hn : 0 < n) (idx : List ℕ) (hi : idx.length = n) (t : List K)
    (ht : t.length = n) (i : ℕ) :
    (Spline.default n : Spline V).cps = [] ∧ (Spline.default n : Spline V).ncp = 0 ∧
    (Spline.default n : Spline V).degrees = List.replicate n 0 ∧
    (Spline.default n : Spline V).globalToLocal idx = .ok (idx[0]'(by omega)) ∧
    (Spline.default n : Spline V).localToGlobal i = .error .ub ∧
    (Spline.default n : Spline V).controlPoint idx = .error .ub ∧
    (Spline.default n : Spline V).evaluate t = .error .ub := by
  have hd : (Spline.default n : Spline V).dim = n := by simp [Spline.dim, Spline.default]
  have hg : (Spline.default n : Spline V).globalToLocal idx = .ok (idx[0]'(by omega)) := by
    rw [Spline.globalToLocal, rd_getElem (show 0 < idx.length by omega), bind_ok, hd]
    obtain ⟨c, h1, h2⟩ := loopFrom_inv (a := 1) (b := n) (s := idx[0]'(by omega))
      (f := fun i c => do
        let o ← rd (Spline.default n : Spline V).offsets i
        let x ← rd idx i
        pure (c + o * x)) (P := fun _ c => c = idx[0]'(by omega)) (by omega) rfl
      (fun k _ hk s hs => ⟨s, by
        have : rd (Spline.default n : Spline V).offsets k = .ok 0 := by
          rw [rd_getElem (show k < _ by simpa [Spline.default] using hk)]; simp [Spline.default]
        simp only [this, bind_ok, rd_getElem (show k < idx.length by omega), pure_eq_ok]
        simp, hs⟩)
    rw [h1, h2]
  refine ⟨rfl, rfl, rfl, hg, ?_, ?_, ?_⟩
  · rw [Spline.localToGlobal, hd]
    refine loop_first_error ?_ hn
    have : rd (Spline.default n : Spline V).offsets 0 = .ok 0 := by
      rw [rd_getElem (show 0 < _ by simpa [Spline.default] using hn)]; simp [Spline.default]
    have h2 : rd (Spline.default n : Spline V).degrees 0 = .ok 0 := by
      rw [rd_getElem (show 0 < _ by simpa [Spline.default] using hn)]; simp [Spline.default]
    simp [this, h2, divU]
  · rw [Spline.controlPoint, hg, bind_ok]
    exact rd_ub (by simp [Spline.default])
  · rw [Spline.evaluate, hd]
    obtain ⟨r, h1, h2⟩ := loop_inv (n := n) (s := ((Spline.default n : Spline V).cps, (Spline.default n : Spline V).ncp))
      (f := fun par_dim (r : List V × ℕ) => do
        let factor ← rd t par_dim
        let inv_factor := 1 - factor
        let p ← rd (Spline.default n : Spline V).degrees par_dim
        let off ← rd (Spline.default n : Spline V).offsets par_dim
        let ctps_to_consider := r.2 / (p + 1)
        let m ← loop ctps_to_consider (fun starting_point_id m =>
          let offset := (off * (p + 1)) * starting_point_id
          loop (p + 1) (fun i m =>
            loop (p - i) (fun j m => do
              let a ← rd m (j * off + offset)
              let b ← rd m ((j + 1) * off + offset)
              wr m (j * off + offset) (inv_factor • a + factor • b)) m) m) r.1
        pure (m, ctps_to_consider)) (P := fun _ r => r = (([] : List V), 0)) rfl
      (fun k hk s hs => ⟨([], 0), by
        have h1 : rd (Spline.default n : Spline V).offsets k = .ok 0 := by
          rw [rd_getElem (show k < _ by simpa [Spline.default] using hk)]; simp [Spline.default]
        have h2 : rd (Spline.default n : Spline V).degrees k = .ok 0 := by
          rw [rd_getElem (show k < _ by simpa [Spline.default] using hk)]; simp [Spline.default]
        subst hs
        simp [rd_getElem (show k < t.length by omega), h1, h2], rfl⟩)
    rw [h1, bind_ok, h2]
    exact rd_ub (by simp)

example : (Spline.default 2 : Spline ℚ).globalToLocal [3, 5] = .ok 3 ∧
    (Spline.default 2 : Spline ℚ).evaluate [(1 / 2 : ℚ), 1 / 3] = .error .ub :=
  ⟨(C06_default_use (K := ℚ) 2 (by omega) [3, 5] rfl [1 / 2, 1 / 3] rfl 0).2.2.2.1,
   (C06_default_use (K := ℚ) 2 (by omega) [3, 5] rfl [1 / 2, 1 / 3] rfl 0).2.2.2.2.2.2⟩

end

/-- a history that runs: construct, write, elevate, scale, add, change degrees -/
example : ∃ s : Spline ℚ, (Spline.ofDegrees [1] >>= fun s => runHistory Ex.cfg s
      [.setEntry 1 (5 : ℚ), .orderElevate 0, .scale (2 : ℚ), .updateDegrees [2], .setControlPoint [2] 7]) = .ok s ∧
    s.degrees = [2] := by
  refine ⟨⟨[2], 3, [1], [0, 5, 7]⟩, ?_, rfl⟩
  decide +kernel

/-! ## C12, C59: order elevation -/

section
variable {K V : Type} [Field K] [CharZero K] [AddCommGroup V] [Module K V]

/-- C12. One elevation: degree `d` goes up by one, the function stays. The code's
32-bit indices need fewer than `2^31` control points. Success in the model means that
every memory access was in range. -/
theorem C12_order_elevate (s : Spline V) (ds : List ℕ) (f : List K → V) (hs : s.Computes ds f) (d p : ℕ)
    (hp : ds[d]? = some p) (hsize : size (ds.set d (p + 1)) < 2 ^ 31) :
    ∃ r, Spline.orderElevate K s d = .ok r ∧ r.Computes (ds.set d (p + 1)) f := by
  obtain ⟨r, h1, h2, h3, h4⟩ := Spline.orderElevate_ok (K := K) hs.wf (d := d) (p := p)
    (by rw [hs.degrees_eq]; exact hp) (by rw [hs.degrees_eq]; exact hsize)
  refine ⟨r, h1, Spline.Computes.mk' h2 (by rw [h3, hs.degrees_eq]) fun t ht => ?_⟩
  have ht' : t.length = ds.length := by simpa using ht
  rw [h4 t (by rw [hs.dim_eq]; exact ht'), hs.value_eq ht']

/-- Degrees after the elevations `dims`: entry `d` goes up by the number of times `d`
occurs. -/
def raised (ds dims : List ℕ) : List ℕ := ds.mapIdx (fun d p => p + dims.count d)

/-- A sequence of elevations on one object. -/
def elevateAll (K : Type) [Field K] {V : Type} [AddCommGroup V] [Module K V] (s : Spline V) (dims : List ℕ) :
    M (Spline V) := dims.foldlM (fun s d => Spline.orderElevate K s d) s

theorem raised_cons {ds : List ℕ} {d p : ℕ} (hp : ds[d]? = some p) (dims : List ℕ) :
    raised (ds.set d (p + 1)) dims = raised ds (d :: dims) := by
  obtain ⟨hd, e⟩ := List.getElem?_eq_some_iff.mp hp
  apply List.ext_getElem
  · simp [raised]
  · intro i h1 h2
    simp only [raised, List.getElem_mapIdx, List.getElem_set, List.count_cons]
    by_cases hi : d = i
    · subst hi; simp [e]; omega
    · simp [hi]

theorem size_set_le {ds : List ℕ} {d p : ℕ} (hp : ds[d]? = some p) (dims : List ℕ) :
    size (ds.set d (p + 1)) ≤ size (raised ds (d :: dims)) := by
  rw [← raised_cons hp]
  apply size_le_of_valid
  unfold ValidIdx
  rw [List.forall₂_iff_get]
  refine ⟨by simp [raised], fun i h1 h2 => ?_⟩
  simp only [raised, List.get_eq_getElem, List.getElem_mapIdx]
  omega

/-- C59. Any finite sequence of elevations, in any order of dimensions, yields the
same function. -/
theorem C59_elevations (dims : List ℕ) : ∀ (s : Spline V) (ds : List ℕ) (f : List K → V), s.Computes ds f →
    (∀ d ∈ dims, d < ds.length) → size (raised ds dims) < 2 ^ 31 →
    ∃ r, elevateAll K s dims = .ok r ∧ r.Computes (raised ds dims) f := by
  induction dims with
  | nil =>
    intro s ds f hs _ _
    have e : raised ds [] = ds := by
      apply List.ext_getElem <;> simp [raised]
    exact ⟨s, rfl, by rw [e]; exact hs⟩
  | cons d dims ih =>
    intro s ds f hs hd hsz
    obtain ⟨p, hp⟩ : ∃ p, ds[d]? = some p := ⟨_, List.getElem?_eq_getElem (hd d (by simp))⟩
    obtain ⟨r, h1, h2⟩ := C12_order_elevate s ds f hs d _ hp (lt_of_le_of_lt (size_set_le hp dims) hsz)
    obtain ⟨r', h3, h4⟩ := ih r _ f h2 (fun e he => by simpa using hd e (by simp [he]))
      (by rw [raised_cons hp]; exact hsz)
    refine ⟨r', ?_, by rw [← raised_cons hp]; exact h4⟩
    unfold elevateAll
    rw [List.foldlM_cons, h1]
    exact h3

/-- C59. The order of the elevations does not matter: the resulting objects are
identical, control point by control point. -/
theorem C59_order_irrelevant (dims dims' : List ℕ) (hperm : dims.Perm dims') (s : Spline V) (hs : s.WF)
    (hd : ∀ d ∈ dims, d < s.degrees.length) (hsz : size (raised s.degrees dims) < 2 ^ 31) :
    ∃ r, elevateAll K s dims = .ok r ∧ elevateAll K s dims' = .ok r := by
  have e : raised s.degrees dims' = raised s.degrees dims := by
    unfold raised; congr 1; funext d p; rw [hperm.count_eq]
  obtain ⟨r, h1, h2⟩ := C59_elevations (K := K) dims s _ _ hs.computes hd hsz
  obtain ⟨r', h3, h4⟩ := C59_elevations (K := K) dims' s _ _ hs.computes
    (fun d h => hd d (hperm.mem_iff.mpr h)) (by rw [e]; exact hsz)
  rw [e] at h4
  exact ⟨r, h1, by rw [h3, h4.unique h2]⟩

end

section
variable {K V : Type} [Field K] [LinearOrder K] [IsStrictOrderedRing K] [AddCommGroup V] [Module K V]

/-- C59. Elevating before or after a split gives identical objects. -/
theorem C59_elevate_split_commute (s : Spline V) (hs : s.WF) (d p e : ℕ) (hp : s.degrees[d]? = some p)
    (he : e < s.degrees.length) (hsize : size (s.degrees.set d (p + 1)) < 2 ^ 31) (z : K) (h0 : 0 < z) (h1 : z < 1) :
    ∃ r a b a' b', Spline.orderElevate K s d = .ok r ∧ r.splitAt z e = .ok (a', b') ∧
      s.splitAt z e = .ok (a, b) ∧ Spline.orderElevate K a d = .ok a' ∧ Spline.orderElevate K b d = .ok b' := by
  have hz : 0 < z ∧ z < 1 := ⟨h0, h1⟩
  obtain ⟨a, b, e1, wa, wb, da, db, hv⟩ := Spline.splitAt_ok (K := K) hs (List.getElem?_eq_getElem he) hz
  obtain ⟨r, e2, wr, dr, hr⟩ := Spline.orderElevate_ok (K := K) hs hp hsize
  have he' : e < r.degrees.length := by rw [dr]; simpa using he
  obtain ⟨a', b', e3, wa', wb', da', db', hv'⟩ := Spline.splitAt_ok (K := K) wr (List.getElem?_eq_getElem he') hz
  obtain ⟨a2, e4, wa2, da2, ha2⟩ := Spline.orderElevate_ok (K := K) wa (by rw [da]; exact hp) (by rw [da]; exact hsize)
  obtain ⟨b2, e5, wb2, db2, hb2⟩ := Spline.orderElevate_ok (K := K) wb (by rw [db]; exact hp) (by rw [db]; exact hsize)
  have hrd : r.dim = s.dim := by simp [Spline.dim, dr]
  have key : ∀ t : List K, t.length = s.dim → a2.value t = a'.value t ∧ b2.value t = b'.value t := by
    intro t ht
    have hx : t[e]? = some (t[e]'(by rw [ht]; exact he)) := List.getElem?_eq_getElem _
    obtain ⟨v1, v2⟩ := hv t _ ht hx
    obtain ⟨v3, v4⟩ := hv' t _ (by rw [hrd]; exact ht) hx
    rw [ha2 t (by rw [Spline.dim, da]; exact ht), hb2 t (by rw [Spline.dim, db]; exact ht), v1, v2, v3, v4,
      hr _ (by simpa using ht), hr _ (by simpa using ht)]
    exact ⟨rfl, rfl⟩
  have ea : a2 = a' := Spline.value_unique (K := K) wa2 wa' (by rw [da2, da', dr, da])
    (fun t ht => (key t (by rw [ht]; simp [Spline.dim, da2, da])).1)
  have eb : b2 = b' := Spline.value_unique (K := K) wb2 wb' (by rw [db2, db', dr, db])
    (fun t ht => (key t (by rw [ht]; simp [Spline.dim, db2, db])).2)
  exact ⟨r, a, b, a', b', e2, e3, e1, by rw [e4, ea], by rw [e5, eb]⟩

end

example : ∃ r, Spline.orderElevate ℚ Ex.A 1 = .ok r ∧ r.Computes [2, 2] (fun t : List ℚ => Ex.A.value t) :=
  C12_order_elevate (K := ℚ) Ex.A _ _ Ex.A_wf.computes 1 1 rfl (by decide)

example : ∃ r, elevateAll ℚ Ex.A [0, 1, 0] = .ok r ∧ elevateAll ℚ Ex.A [1, 0, 0] = .ok r :=
  C59_order_irrelevant (K := ℚ) [0, 1, 0] [1, 0, 0] (by decide) Ex.A Ex.A_wf (by decide) (by decide)

example : ∃ r a b a' b', Spline.orderElevate ℚ Ex.A 1 = .ok r ∧ r.splitAt (1/3 : ℚ) 0 = .ok (a', b') ∧
      Ex.A.splitAt (1/3 : ℚ) 0 = .ok (a, b) ∧ Spline.orderElevate ℚ a 1 = .ok a' ∧ Spline.orderElevate ℚ b 1 = .ok b' :=
  C59_elevate_split_commute (K := ℚ) Ex.A Ex.A_wf 1 1 0 rfl (by decide) (by decide) (1/3) (by norm_num) (by norm_num)

/-! ## C34: equality -/

section
variable {V : Type} [DecidableEq V]

/-- C34. In any arithmetic `operator==` holds if the degrees are equal and each pair of control points compares equal. -/
theorem C34_pointwise {V : Type} [BEq V] (a b : Spline V) :
    a.eqOp b = true ↔ a.degrees = b.degrees ∧ List.Forall₂ (fun x y => (y == x) = true) a.cps b.cps := by
  have key : ∀ l m : List V, (m == l) = true ↔ List.Forall₂ (fun x y => (y == x) = true) l m := by
    intro l
    induction l with
    | nil => intro m; cases m <;> simp
    | cons x l ih => intro m; cases m <;> simp [List.cons_beq_cons, ih]
  unfold Spline.eqOp
  split
  · next h => rw [key]; simp [h]
  · next h => simp [Ne.symm h]

theorem C34_refl (s : Spline V) : s.eqOp s = true := by simp [Spline.eqOp]

theorem C34_symm (a b : Spline V) : a.eqOp b = b.eqOp a := by
  unfold Spline.eqOp
  by_cases h : b.degrees = a.degrees
  · rw [if_pos h, if_pos h.symm]; simp [eq_comm]
  · rw [if_neg h, if_neg (Ne.symm h)]

theorem C34_trans (a b c : Spline V) (h1 : a.eqOp b = true) (h2 : b.eqOp c = true) : a.eqOp c = true := by
  unfold Spline.eqOp at *
  split at h1 <;> split at h2 <;> simp_all

theorem eqOp_iff {a b : Spline V} (ha : a.WF) (hb : b.WF) : a.eqOp b = true ↔ a = b := by
  constructor
  · intro h
    unfold Spline.eqOp at h
    split at h
    · next hd =>
      have hc : b.cps = a.cps := by simpa using h
      rw [ha.self_eq, hb.self_eq, hd, hc]
    · cases h
  · rintro rfl; exact C34_refl a

/-- C34. Equal splines have the same degrees and `Evaluate` to the same outcome, in
any arithmetic. -/
theorem C34_evaluate {K : Type} [One K] [Sub K] [Add V] [SMul K V] (a b : Spline V) (ha : a.WF) (hb : b.WF)
    (h : a.eqOp b = true) : a.degrees = b.degrees ∧ ∀ t : List K, a.evaluate t = b.evaluate t := by
  obtain rfl := (eqOp_iff ha hb).mp h
  exact ⟨rfl, fun _ => rfl⟩

/-- C34 (completeness, over a field of characteristic zero). Two splines of the same
degrees that evaluate to the same values everywhere are equal in the sense of
`operator==`. -/
theorem C34_complete {K : Type} [Field K] [CharZero K] [AddCommGroup V] [Module K V] (a b : Spline V) (ds : List ℕ)
    (f g : List K → V) (ha : a.Computes ds f) (hb : b.Computes ds g) :
    a.eqOp b = true ↔ ∀ t : List K, t.length = ds.length → f t = g t := by
  rw [eqOp_iff ha.wf hb.wf]
  constructor
  · rintro rfl t ht
    rw [← ha.value_eq ht, ← hb.value_eq ht]
  · intro h
    exact ha.unique (hb.congr fun t ht => (h t ht).symm)

end

example : Ex.A.eqOp Ex.A = true ∧ Ex.A.eqOp Ex.B = false := by decide +kernel

end Bezman.Props
