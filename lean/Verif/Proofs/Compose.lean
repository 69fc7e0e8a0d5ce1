import Verif.Proofs.Power
import Verif.Proofs.Box
import Verif.Proofs.Basis
import Verif.Model.Compose
import Verif.Spec.Coords
import Mathlib.Tactic.IntervalCases

/-! Functional composition. -/

namespace Bezman
open Spec Finset
namespace Spline
variable {K V : Type} [Field K] [CharZero K]

/-- `s` is a consistent spline of degrees `ds` with values `f t` -/
structure Val (s : Spline K) (ds : List ℕ) (f : List K → K) : Prop where
  wf : s.WF
  deg : s.degrees = ds
  val : ∀ t : List K, t.length = ds.length → s.value t = f t

theorem Val.mul {cfg : Cfg} (hc : cfg.Ok) {a b : Spline K} {q : List ℕ} {k l : ℕ} {f g : List K → K}
    (ha : Val a (q.map (k * ·)) f) (hb : Val b (q.map (l * ·)) g) (hd : DegOk cfg (q.map ((k + l) * ·))) :
    ∃ r, mulScalar cfg a b = .ok r ∧ Val r (q.map ((k + l) * ·)) (fun t => f t * g t) := by
  obtain ⟨r, h1, h2, h3, h4⟩ := mulScalar_ok hc ha.wf hb.wf (by unfold dim; rw [ha.deg, hb.deg]; simp)
    (by rw [ha.deg, hb.deg, zipWith_map_mul]; exact hd)
  rw [ha.deg, hb.deg, zipWith_map_mul] at h3
  refine ⟨r, h1, h2, h3, ?_⟩
  intro t ht
  have ht' : t.length = q.length := by simpa using ht
  rw [h4 t (by unfold dim; rw [ha.deg]; simpa using ht'), ha.val t (by simpa using ht'), hb.val t (by simpa using ht')]

theorem Val.congr {s : Spline K} {ds : List ℕ} {f g : List K → K} (h : Val s ds f)
    (hfg : ∀ t, t.length = ds.length → f t = g t) : Val s ds g :=
  ⟨h.wf, h.deg, fun t ht => by rw [h.val t ht, hfg t ht]⟩

omit [CharZero K] in
theorem Val.smul {s : Spline K} {ds : List ℕ} {f : List K → K} (h : Val s ds f) (c : K) :
    ∃ r, s.smulOp c = .ok r ∧ Val r ds (fun t => c * f t) := by
  unfold smulOp
  rw [mapCps_ok h.wf]
  refine ⟨_, rfl, h.wf.map _, h.deg, ?_⟩
  intro t ht
  rw [value_map h.wf]
  simp only [smul_eq_mul]
  have := neval_smul c s.degrees t (fun i => s.cps.getD i 0)
  simp only [smul_eq_mul] at this
  rw [this, ← value_eq_neval, h.val t ht]

theorem map_zero_mul (q : List ℕ) : q.map (0 * ·) = List.replicate q.length 0 := by
  induction q with
  | nil => rfl
  | cons a q ih => simp [List.replicate_succ]

theorem map_one_mul (q : List ℕ) : q.map (1 * ·) = q := by simp

/-- homogeneous Bernstein polynomial `C(p,i) x^i y^(p-i)` -/
def hb (p i : ℕ) (x y : K) : K := (p.choose i : K) * x ^ i * y ^ (p - i)

omit [CharZero K] in
theorem hb_bern (p i : ℕ) (x : K) : hb p i x (1 - x) = bern p i x := rfl

theorem composeBernstein_ok {cfg : Cfg} (hc : cfg.Ok) {p : ℕ} {q : List ℕ} {e e' : Spline K} {x y : List K → K}
    (hq : 0 < q.length) (he : Val e q x) (he' : Val e' q y) (hp : p < cfg.maxBinom)
    (hd : DegOk cfg (q.map (p * ·))) :
    ∃ l, composeBernstein cfg p q.length e e' = .ok l ∧ l.length = p + 1 ∧
      ∀ i, i ≤ p → ∃ b, l[i]? = some b ∧ Val b (q.map (p * ·)) (fun t => hb p i (x t) (y t)) := by
  have he1 : Val e (q.map (1 * ·)) x := by rw [map_one_mul]; exact he
  have he1' : Val e' (q.map (1 * ·)) y := by rw [map_one_mul]; exact he'
  unfold composeBernstein
  obtain ⟨o, o1, o2, o3, o4⟩ := oneSpline_ok (K := K) hq
  have ho : Val o (q.map (0 * ·)) (fun _ => 1) :=
    ⟨o2, by rw [map_zero_mul]; exact o3, fun t ht => o4 t (by simpa using ht)⟩
  rw [o1]
  simp only [bind_ok]
  rw [wr_ok _ (by simp)]
  simp only [bind_ok]
  -- powers of the extracted coordinate
  obtain ⟨⟨l1, m1⟩, a1, a2, a3, a4⟩ := loopFrom_inv (a := 1) (b := p + 1)
    (s := ((List.replicate (p + 1) (Spline.default q.length)).set 0 o, o))
    (f := fun i (r : List (Spline K) × Spline K) => do
      let m ← mulScalar cfg r.2 e
      let bs ← wr r.1 i m
      pure (bs, m))
    (P := fun k r => r.1.length = p + 1 ∧ (∀ i, i < k → ∃ b, r.1[i]? = some b ∧ Val b (q.map (i * ·)) (fun t => x t ^ i)) ∧
      Val r.2 (q.map ((k - 1) * ·)) (fun t => x t ^ (k - 1)))
    (by omega)
    ⟨by simp, by
      intro i hi
      obtain rfl : i = 0 := by omega
      exact ⟨o, by rw [List.getElem?_set_self (by simp)], by simpa using ho⟩, by simpa using ho⟩
    (by
      rintro k hk1 hk2 ⟨l, m⟩ ⟨b1, b2, b3⟩
      simp only at b1 b2 b3 ⊢
      obtain ⟨r, r1, r2⟩ := b3.mul hc he1 (by
        rw [show k - 1 + 1 = k by omega]; exact DegOk.mono_mul (by omega) hd)
      rw [show k - 1 + 1 = k by omega] at r2
      have r3 : Val r (q.map (k * ·)) (fun t => x t ^ k) := r2.congr (fun t _ => by
        rw [← pow_succ, show k - 1 + 1 = k by omega])
      rw [r1]
      simp only [bind_ok]
      rw [wr_ok _ (by omega)]
      refine ⟨_, rfl, by simpa using b1, ?_, by simpa using r3⟩
      intro i hi
      simp only
      by_cases hik : i = k
      · subst hik
        exact ⟨r, by rw [List.getElem?_set_self (by omega)], r3⟩
      · obtain ⟨b, hb1, hb2⟩ := b2 i (by omega)
        exact ⟨b, by rw [List.getElem?_set_ne (by omega)]; exact hb1, hb2⟩)
  rw [a1]
  simp only [bind_ok] at a2 a3 a4 ⊢
  -- powers of the inverse
  obtain ⟨⟨l2, m2⟩, c1, c2, c3, c3', c4⟩ := loopFrom_inv (a := 1) (b := p + 1)
    (s := (l1, o))
    (f := fun i (r : List (Spline K) × Spline K) => do
      let m ← mulScalar cfg r.2 e'
      let b ← rd r.1 (p - i)
      let b ← mulScalar cfg b m
      let bs ← wr r.1 (p - i) b
      pure (bs, m))
    (P := fun k r => r.1.length = p + 1 ∧
      (∀ i, i ≤ p → p < i + k → ∃ b, r.1[i]? = some b ∧ Val b (q.map (p * ·)) (fun t => x t ^ i * y t ^ (p - i))) ∧
      (∀ i, i + k ≤ p → ∃ b, r.1[i]? = some b ∧ Val b (q.map (i * ·)) (fun t => x t ^ i)) ∧
      Val r.2 (q.map ((k - 1) * ·)) (fun t => y t ^ (k - 1)))
    (by omega)
    ⟨a2, by
      intro i hi1 hi2
      obtain rfl : i = p := by omega
      obtain ⟨b, hb1, hb2⟩ := a3 i (by omega)
      exact ⟨b, hb1, by simpa using hb2⟩, fun i hi => a3 i (by omega), by simpa using ho⟩
    (by
      rintro k hk1 hk2 ⟨l, m⟩ ⟨b1, b2, b2', b3⟩
      simp only at b1 b2 b2' b3 ⊢
      obtain ⟨r, r1, r2⟩ := b3.mul hc he1' (by
        rw [show k - 1 + 1 = k by omega]; exact DegOk.mono_mul (by omega) hd)
      rw [show k - 1 + 1 = k by omega] at r2
      have r3 : Val r (q.map (k * ·)) (fun t => y t ^ k) := r2.congr (fun t _ => by
        rw [← pow_succ, show k - 1 + 1 = k by omega])
      rw [r1]
      simp only [bind_ok]
      obtain ⟨b, hb1, hb2⟩ := b2' (p - k) (by omega)
      rw [rd_ok hb1]
      simp only [bind_ok]
      obtain ⟨u, u1, u2⟩ := hb2.mul hc r3 (by rw [show p - k + k = p by omega]; exact hd)
      rw [show p - k + k = p by omega] at u2
      rw [u1]
      simp only [bind_ok]
      rw [wr_ok _ (by omega)]
      refine ⟨_, rfl, by simpa using b1, ?_, ?_, by simpa using r3⟩
      · intro i hi1 hi2
        simp only
        by_cases hik : i = p - k
        · subst hik
          exact ⟨u, by rw [List.getElem?_set_self (by omega)], u2.congr (fun t _ => by
            rw [show p - (p - k) = k by omega])⟩
        · obtain ⟨b, hb1, hb2⟩ := b2 i hi1 (by omega)
          exact ⟨b, by rw [List.getElem?_set_ne (by omega)]; exact hb1, hb2⟩
      · intro i hi
        simp only
        obtain ⟨b, hb1, hb2⟩ := b2' i (by omega)
        exact ⟨b, by rw [List.getElem?_set_ne (by omega)]; exact hb1, hb2⟩)
  rw [c1]
  simp only [bind_ok] at c2 c3 c3' c4 ⊢
  -- coefficients
  by_cases hp1 : p ≤ 1
  · rw [loopFrom_empty hp1]
    refine ⟨_, rfl, c2, ?_⟩
    intro i hi
    obtain ⟨b, hb1, hb2⟩ := c3 i hi (by omega)
    refine ⟨b, hb1, hb2.congr (fun t _ => ?_)⟩
    have : p.choose i = 1 := by interval_cases p <;> interval_cases i <;> rfl
    simp [hb, this]
  · obtain ⟨l3, f1, f2, f3, f4⟩ := loopFrom_inv (a := 1) (b := p)
      (s := l2)
      (f := fun i bs => do
        let b ← rd bs (p - i)
        let c ← choose cfg p i
        let b ← b.smulOp ((c : Nat) : K)
        wr bs (p - i) b)
      (P := fun k l => l.length = p + 1 ∧
        (∀ i, i < p → p < i + k → ∃ b, l[i]? = some b ∧ Val b (q.map (p * ·)) (fun t => hb p i (x t) (y t))) ∧
        (∀ i, i ≤ p → (i = p ∨ i + k ≤ p) → ∃ b, l[i]? = some b ∧
          Val b (q.map (p * ·)) (fun t => x t ^ i * y t ^ (p - i))))
      (by omega)
      ⟨c2, fun i h1 h2 => by omega, fun i h1 _ => c3 i h1 (by omega)⟩
      (by
        rintro k hk1 hk2 l ⟨b1, b2, b3⟩
        obtain ⟨b, hb1, hb2⟩ := b3 (p - k) (by omega) (Or.inr (by omega))
        rw [rd_ok hb1]
        simp only [bind_ok]
        rw [choose_ok hc hp (by omega)]
        simp only [bind_ok]
        obtain ⟨u, u1, u2⟩ := hb2.smul ((p.choose k : ℕ) : K)
        rw [u1]
        simp only [bind_ok]
        refine ⟨_, wr_ok _ (by omega), by simpa using b1, ?_, ?_⟩
        · intro i hi1 hi2
          by_cases hik : i = p - k
          · subst hik
            refine ⟨u, by rw [List.getElem?_set_self (by omega)], u2.congr (fun t _ => ?_)⟩
            unfold hb
            rw [← Nat.choose_symm (show k ≤ p by omega), mul_assoc]
          · obtain ⟨b, hb1, hb2⟩ := b2 i hi1 (by omega)
            exact ⟨b, by rw [List.getElem?_set_ne (by omega)]; exact hb1, hb2⟩
        · intro i hi1 hi2
          obtain ⟨b, hb1, hb2⟩ := b3 i hi1 (by omega)
          exact ⟨b, by rw [List.getElem?_set_ne (by omega)]; exact hb1, hb2⟩)
    rw [f1]
    refine ⟨_, rfl, f2, ?_⟩
    intro i hi
    by_cases hi0 : i = 0
    · subst hi0
      obtain ⟨b, hb1, hb2⟩ := f4 0 (by omega) (Or.inr (by omega))
      exact ⟨b, hb1, hb2.congr (fun t _ => by simp [hb])⟩
    · by_cases hip : i = p
      · subst hip
        obtain ⟨b, hb1, hb2⟩ := f4 i (by omega) (Or.inl rfl)
        exact ⟨b, hb1, hb2.congr (fun t _ => by simp [hb])⟩
      · exact f3 i (by omega) (by omega)

/-- values of the outer basis functions after inserting the coordinates -/
def hbFns (ps : List ℕ) (x y : ℕ → K) : List (ℕ → K) :=
  ps.zipIdx.map (fun pd i => hb pd.1 i (x pd.2) (y pd.2))

omit [CharZero K] in
theorem hbFns_length (ps : List ℕ) (x y : ℕ → K) : (hbFns ps x y).length = ps.length := by simp [hbFns]

omit [CharZero K] in
theorem hbFns_getElem? {ps : List ℕ} {d p : ℕ} (hp : ps[d]? = some p) (x y : ℕ → K) :
    (hbFns ps x y)[d]? = some (fun i => hb p i (x d) (y d)) := by
  simp [hbFns, hp]

/-- the family of basis splines is as it should be -/
def BasesOk (q ps : List ℕ) (x y : ℕ → List K → K) (bases : List (List (Spline K))) : Prop :=
  bases.length = ps.length ∧ ∀ d p, ps[d]? = some p → ∃ l, bases[d]? = some l ∧
    ∀ i, i ≤ p → ∃ b, l[i]? = some b ∧ Val b (q.map (p * ·)) (fun t => hb p i (x d t) (y d t))

theorem composeBases_ok {cfg : Cfg} (hc : cfg.Ok) {ps q : List ℕ} (hq : 0 < q.length)
    {extract : ℕ → M (Spline K)} {inverse : Spline K → M (Spline K)} {x y : ℕ → List K → K}
    (hext : ∀ d, d < ps.length → ∃ e e', extract d = .ok e ∧ inverse e = .ok e' ∧ Val e q (x d) ∧ Val e' q (y d))
    (hps : ∀ p ∈ ps, p < cfg.maxBinom) (hd : ∀ p ∈ ps, DegOk cfg (q.map (p * ·))) :
    ∃ bases, composeBases cfg ps q.length extract inverse = .ok bases ∧ BasesOk q ps x y bases := by
  unfold composeBases
  obtain ⟨l, h1, h2, h3⟩ := loop_inv (n := ps.length) (s := List.replicate ps.length ([] : List (Spline K)))
    (f := fun d (l : List (List (Spline K))) => do
      let p ← rd ps d
      let e ← extract d
      let inv ← inverse e
      let bs ← composeBernstein cfg p q.length e inv
      wr l d bs)
    (P := fun k bases => bases.length = ps.length ∧ ∀ d p, d < k → ps[d]? = some p → ∃ l, bases[d]? = some l ∧
      ∀ i, i ≤ p → ∃ b, l[i]? = some b ∧ Val b (q.map (p * ·)) (fun t => hb p i (x d t) (y d t)))
    ⟨by simp, fun d p hd => by omega⟩
    (by
      rintro k hk l ⟨a1, a2⟩
      have hpk : ps[k]? = some ps[k] := List.getElem?_eq_getElem hk
      rw [rd_ok hpk]
      simp only [bind_ok]
      obtain ⟨e, e', e1, e2, e3, e4⟩ := hext k hk
      rw [e1]
      simp only [bind_ok]
      rw [e2]
      simp only [bind_ok]
      obtain ⟨bs, b1, b2, b3⟩ := composeBernstein_ok hc hq e3 e4 (hps _ (List.getElem_mem hk))
        (hd _ (List.getElem_mem hk))
      rw [b1]
      simp only [bind_ok]
      refine ⟨_, wr_ok _ (by omega), by simpa using a1, ?_⟩
      intro d p hdk hdp
      by_cases hdk' : d = k
      · subst hdk'
        rw [hpk] at hdp
        simp only [Option.some.injEq] at hdp
        subst hdp
        exact ⟨bs, by rw [List.getElem?_set_self (by omega)], b3⟩
      · obtain ⟨l', c1, c2⟩ := a2 d p (by omega) hdp
        exact ⟨l', by rw [List.getElem?_set_ne (by omega)]; exact c1, c2⟩)
  exact ⟨l, h1, h2, fun d p hdp => h3 d p (List.getElem?_eq_some_iff.mp hdp).1 hdp⟩

theorem composeTensor_ok {cfg : Cfg} (hc : cfg.Ok) {ps q idx : List ℕ} {x y : ℕ → List K → K}
    {bases : List (List (Spline K))} (hb : BasesOk q ps x y bases) (hpos : 0 < ps.length)
    (hidx : ValidIdx ps idx) (hd : DegOk cfg (q.map (ps.sum * ·))) :
    ∃ r, composeTensor cfg bases idx = .ok r ∧
      Val r (q.map (ps.sum * ·)) (fun t => pw (hbFns ps (fun d => x d t) (fun d => y d t)) idx) := by
  obtain ⟨hbl, hb⟩ := hb
  have hil := hidx.length
  have hidx' := (validIdx_iff.mp hidx).2
  have get : ∀ d (hd : d < ps.length), ∃ l b, bases[d]? = some l ∧ idx[d]? = some (idx[d]'(by omega)) ∧
      l[idx[d]'(by omega)]? = some b ∧
      Val b (q.map (ps[d] * ·)) (fun t => Bezman.Spline.hb ps[d] (idx[d]'(by omega)) (x d t) (y d t)) := by
    intro d hd
    obtain ⟨l, l1, l2⟩ := hb d ps[d] (List.getElem?_eq_getElem hd)
    obtain ⟨b, b1, b2⟩ := l2 (idx[d]'(by omega)) (hidx' d _ _ (List.getElem?_eq_getElem (by omega))
      (List.getElem?_eq_getElem hd))
    exact ⟨l, b, l1, List.getElem?_eq_getElem (by omega), b1, b2⟩
  unfold composeTensor
  obtain ⟨l, b, g1, g2, g3, g4⟩ := get 0 hpos
  rw [rd_ok g1]
  simp only [bind_ok]
  rw [rd_ok g2]
  simp only [bind_ok]
  rw [rd_ok g3]
  simp only [bind_ok]
  rw [hbl]
  have take_one : ∀ (l : List ℕ) (h : 0 < l.length), l.take 1 = [l[0]] := by
    intro l h; cases l with
    | nil => simp at h
    | cons a l => rfl
  have hsum : ∀ k, k ≤ ps.length → (ps.take k).sum ≤ ps.sum := by
    intro k _
    conv_rhs => rw [← List.take_append_drop k ps, List.sum_append]
    omega
  obtain ⟨r, h1, h2⟩ := loopFrom_inv (a := 1) (b := ps.length) (s := b)
    (f := fun d t => do
      let b ← rd bases d
      let i ← rd idx d
      let x ← rd b i
      mulScalar cfg t x)
    (P := fun k r => Val r (q.map ((ps.take k).sum * ·))
      (fun t => pw ((hbFns ps (fun d => x d t) (fun d => y d t)).take k) (idx.take k)))
    (by omega)
    (by
      rw [take_one ps hpos, take_one idx (by omega)]
      simp only [List.sum_cons, List.sum_nil, add_zero]
      refine g4.congr (fun t _ => ?_)
      have : (hbFns ps (fun d => x d t) (fun d => y d t)).take 1
          = [fun i => Bezman.Spline.hb ps[0] i (x 0 t) (y 0 t)] := by
        have h0 := hbFns_getElem? (List.getElem?_eq_getElem hpos) (fun d => x d t) (fun d => y d t)
        cases hf : hbFns ps (fun d => x d t) (fun d => y d t) with
        | nil => rw [hf] at h0; simp at h0
        | cons f fs => rw [hf] at h0; simp at h0; simp [h0]
      rw [this]; simp)
    (by
      rintro k hk1 hk2 r hr
      obtain ⟨l, b, g1, g2, g3, g4⟩ := get k hk2
      rw [rd_ok g1]
      simp only [bind_ok]
      rw [rd_ok g2]
      simp only [bind_ok]
      rw [rd_ok g3]
      simp only [bind_ok]
      have hs : (ps.take (k + 1)).sum = (ps.take k).sum + ps[k] := by
        rw [List.take_succ_eq_append_getElem hk2, List.sum_append]; simp
      obtain ⟨u, u1, u2⟩ := hr.mul hc g4 (DegOk.mono_mul (by rw [← hs]; exact hsum _ (by omega)) hd)
      refine ⟨u, u1, ?_⟩
      rw [hs]
      refine u2.congr (fun t _ => ?_)
      have hfk := hbFns_getElem? (List.getElem?_eq_getElem hk2) (fun d => x d t) (fun d => y d t)
      obtain ⟨hfl, hfe⟩ := List.getElem?_eq_some_iff.mp hfk
      rw [List.take_succ_eq_append_getElem hfl, List.take_succ_eq_append_getElem (by omega : k < idx.length),
        pw_append (by simp [hbFns_length]; omega), hfe]
      simp)
  rw [h1]
  refine ⟨r, rfl, ?_⟩
  rw [List.take_of_length_le (l := ps) le_rfl, List.take_of_length_le (l := idx) (by omega)] at h2
  refine h2.congr (fun t _ => ?_)
  rw [List.take_of_length_le (by rw [hbFns_length])]

variable [AddCommGroup V] [Module K V]

theorem composeNumerator_ok {cfg : Cfg} (hc : cfg.Ok) {s : Spline V} (h : s.WF) {q : List ℕ} (hq : 0 < q.length)
    {extract : ℕ → M (Spline K)} {inverse : Spline K → M (Spline K)} {x y : ℕ → List K → K}
    (hext : ∀ d, d < s.dim → ∃ e e', extract d = .ok e ∧ inverse e = .ok e' ∧ Val e q (x d) ∧ Val e' q (y d))
    (hps : DegOk cfg s.degrees) (hd : DegOk cfg (q.map (s.degrees.sum * ·))) :
    ∃ r, composeNumerator cfg s q extract inverse = .ok r ∧ r.WF ∧ r.degrees = q.map (s.degrees.sum * ·) ∧
      ∀ t : List K, t.length = q.length →
        r.value t = tens s.degrees (hbFns s.degrees (fun d => x d t) (fun d => y d t)) (fun n => s.cps.getD n 0) := by
  have hle : ∀ p ∈ s.degrees, p ≤ s.degrees.sum := fun p hp => List.le_sum_of_mem hp
  obtain ⟨bases, b1, b2⟩ := composeBases_ok hc hq hext hps (fun p hp => DegOk.mono_mul (hle p hp) hd)
  unfold composeNumerator
  have hdeg : composeDegrees s.degrees q = q.map (s.degrees.sum * ·) := by
    unfold composeDegrees; congr 1; funext a; exact mul_comm _ _
  rw [hdeg]
  set nd := q.map (s.degrees.sum * ·) with hnd
  simp only []
  obtain ⟨D, d1, d2, d3, d4⟩ := ofDegrees_ok (V := V) (ps := nd) (by simpa [hnd] using hq)
  rw [d1]
  simp only [bind_ok]
  rw [b1]
  simp only [bind_ok]
  obtain ⟨r, h1, h2, h3, h4⟩ := loop_inv (n := s.ncp) (s := D)
    (f := fun o ret => do
      let idx ← s.localToGlobal o
      let t ← composeTensor cfg bases idx
      assertM (nd == t.degrees)
      let cps ← loop ret.ncp (fun c cps => do
        let x ← rd cps c
        let b ← rd t.cps c
        let y ← rd s.cps o
        wr cps c (x + b • y)) ret.cps
      pure { ret with cps := cps })
    (P := fun k ret => ret.WF ∧ ret.degrees = nd ∧ ∀ t : List K, t.length = q.length →
      ret.value t = ∑ n ∈ range k, pw (hbFns s.degrees (fun d => x d t) (fun d => y d t)) (unflat s.degrees n) •
        s.cps.getD n 0)
    ⟨d2, d3, by
      intro t ht
      rw [value_of_tab (F := fun _ => (0 : V)) (by rw [d4, d3]), neval_zero]; simp⟩
    (by
      rintro k hk ret ⟨r1, r2, r3⟩
      rw [localToGlobal_ok h]
      simp only [bind_ok]
      obtain ⟨T, t1, t2⟩ := composeTensor_ok hc b2 h.dim_pos (unflat_valid s.degrees k) hd
      rw [t1]
      simp only [bind_ok]
      rw [assertM_ok (by rw [t2.deg]; simp [hnd])]
      simp only [bind_ok]
      have hk' : k < s.cps.length := by rw [h.cps_len, ← h.ncp_eq]; exact hk
      have hyk : s.cps[k]? = some s.cps[k] := List.getElem?_eq_getElem hk'
      have hloop : loop ret.ncp (fun c cps => do
          let x ← rd cps c
          let b ← rd T.cps c
          let y ← rd s.cps k
          wr cps c (x + b • y)) ret.cps
          = .ok (tab (size nd) (fun i => ret.cps.getD i 0 + T.cps.getD i 0 • s.cps[k])) := by
        rw [r1.ncp_eq, r2]
        have hrt := r1.cps_tab; rw [r2] at hrt
        have hTt := t2.wf.cps_tab; rw [t2.deg] at hTt
        rw [hrt]
        obtain ⟨m, e1, H, rfl, e2, e3⟩ := loop_inv (n := size nd) (s := tab (size nd) (fun i => ret.cps.getD i 0))
          (f := fun c cps => do
            let x ← rd cps c
            let b ← rd T.cps c
            let y ← rd s.cps k
            wr cps c (x + b • y))
          (P := fun j m => ∃ H, m = tab (size nd) H ∧
            (∀ i, i < j → H i = ret.cps.getD i 0 + T.cps.getD i 0 • s.cps[k]) ∧
            (∀ i, j ≤ i → H i = ret.cps.getD i 0))
          ⟨_, rfl, fun i hi => by omega, fun i _ => rfl⟩
          (by
            rintro j hj _ ⟨H, rfl, e2, e3⟩
            rw [rd_tab _ hj]
            simp only [bind_ok]
            rw [show rd T.cps j = .ok (T.cps.getD j 0) by conv_lhs => rw [hTt, rd_tab _ hj]]
            simp only [bind_ok]
            rw [rd_ok hyk]
            simp only [bind_ok]
            refine ⟨_, wr_tab _ _ hj, _, rfl, ?_, ?_⟩
            · intro i hi
              by_cases hij : i = j
              · subst hij; rw [Function.update_self, e3 i le_rfl]
              · rw [Function.update_of_ne hij]; exact e2 i (by omega)
            · intro i hi
              rw [Function.update_of_ne (by omega)]; exact e3 i (by omega))
        rw [e1, ← hrt]
        congr 1
        exact tab_congr (fun i hi => e2 i hi)
      rw [hloop]
      refine ⟨_, rfl, ⟨r1.dim_pos, r1.ncp_eq, r1.offsets_eq, by simp [r2]⟩, r2, ?_⟩
      intro t ht
      rw [value_of_tab (F := fun i => ret.cps.getD i 0 + T.cps.getD i 0 • s.cps[k]) (by simp [r2])]
      simp only
      rw [neval_add, ← value_eq_neval, r3 t ht, sum_range_succ]
      congr 1
      have hT : neval ret.degrees t (fun i => T.cps.getD i 0) = T.value t := by
        rw [value_eq_neval, t2.deg, r2]
      have := neval_map (LinearMap.toSpanSingleton K V s.cps[k]) ret.degrees t (fun i => T.cps.getD i 0)
      simp only [LinearMap.toSpanSingleton_apply] at this
      rw [this, hT, t2.val t (by simpa using ht), List.getD_eq_getElem?_getD, hyk]
      rfl)
  rw [h1]
  refine ⟨r, rfl, h2, h3, ?_⟩
  intro t ht
  rw [h4 t ht, h.ncp_eq, sum_pw _ (hbFns_length _ _ _)]

omit [AddCommGroup V] [Module K V] in
theorem composeNumeratorSensitivity_ok {cfg : Cfg} (hc : cfg.Ok) {s : Spline V} (h : s.WF) {q : List ℕ} (hq : 0 < q.length)
    {extract : ℕ → M (Spline K)} {inverse : Spline K → M (Spline K)} {x y : ℕ → List K → K}
    (hext : ∀ d, d < s.dim → ∃ e e', extract d = .ok e ∧ inverse e = .ok e' ∧ Val e q (x d) ∧ Val e' q (y d))
    (hps : DegOk cfg s.degrees) (hd : DegOk cfg (q.map (s.degrees.sum * ·))) :
    ∃ l, composeNumeratorSensitivity cfg s q extract inverse = .ok l ∧ l.length = size s.degrees ∧
      ∀ n, n < size s.degrees → ∃ r, l[n]? = some r ∧ Val r (q.map (s.degrees.sum * ·))
        (fun t => pw (hbFns s.degrees (fun d => x d t) (fun d => y d t)) (unflat s.degrees n)) := by
  have hle : ∀ p ∈ s.degrees, p ≤ s.degrees.sum := fun p hp => List.le_sum_of_mem hp
  obtain ⟨bases, b1, b2⟩ := composeBases_ok hc hq hext hps (fun p hp => DegOk.mono_mul (hle p hp) hd)
  unfold composeNumeratorSensitivity
  rw [b1]
  simp only [bind_ok]
  obtain ⟨l, h1, h2, h3⟩ := loop_inv (n := s.ncp) (s := ([] : List (Spline K)))
    (f := fun o ret => do
      let idx ← s.localToGlobal o
      let t ← composeTensor cfg bases idx
      pure (ret ++ [t]))
    (P := fun k l => l.length = k ∧ ∀ n, n < k → ∃ r, l[n]? = some r ∧ Val r (q.map (s.degrees.sum * ·))
        (fun t => pw (hbFns s.degrees (fun d => x d t) (fun d => y d t)) (unflat s.degrees n)))
    ⟨rfl, fun n hn => by omega⟩
    (by
      rintro k hk l ⟨a1, a2⟩
      rw [localToGlobal_ok h]
      simp only [bind_ok]
      obtain ⟨T, t1, t2⟩ := composeTensor_ok hc b2 h.dim_pos (unflat_valid s.degrees k) hd
      rw [t1]
      refine ⟨_, rfl, by simp [a1], ?_⟩
      intro n hn
      by_cases hnk : n = k
      · subst hnk
        exact ⟨T, by rw [List.getElem?_append_right (by omega), a1]; simp, t2⟩
      · obtain ⟨r, r1, r2⟩ := a2 n (by omega)
        exact ⟨r, by rw [List.getElem?_append_left (by omega)]; exact r1, r2⟩)
  rw [h1]
  rw [h.ncp_eq] at h2 h3
  exact ⟨l, rfl, h2, h3⟩

/-! ### Polynomial inner function -/

section poly
variable {W : Type} [LinearOrder K] [IsStrictOrderedRing K] [AddCommGroup W] [Module K W] [Coords K W] [LawfulCoords K W]
open Coords

omit [CharZero K] [LinearOrder K] [IsStrictOrderedRing K] in
theorem pointSub_ok {e : Spline K} {q : List ℕ} {f : List K → K} (he : Val e q f) (c : K) :
    ∃ e', pointSub c e = .ok e' ∧ Val e' q (fun t => c - f t) := by
  unfold pointSub subPoint
  rw [mapCps_ok he.wf]
  simp only [bind_ok]
  have hwf : WF (⟨e.degrees, e.ncp, e.offsets, e.cps.map (fun x => x - c)⟩ : Spline K) := he.wf.map _
  rw [negOp_ok hwf]
  refine ⟨_, rfl, hwf.map _, he.deg, ?_⟩
  intro t ht
  rw [value_map (s := ⟨e.degrees, e.ncp, e.offsets, e.cps.map (fun x => x - c)⟩) hwf]
  simp only
  rw [neval_neg, ← value_eq_neval (s := ⟨e.degrees, e.ncp, e.offsets, e.cps.map (fun x => x - c)⟩), value_map he.wf, neval_sub,
    neval_const (by rw [he.deg]; exact ht), ← value_eq_neval, he.val t ht]
  ring

omit [CharZero K] [LinearOrder K] [IsStrictOrderedRing K] in
/-- extraction step of a polynomial inner function -/
theorem poly_ext {inner : Spline W} (hi : inner.WF) (d : Fin (Coords.n K W)) :
    ∃ e e', extractDimension K inner d = .ok e ∧ pointSub (1 : K) e = .ok e' ∧
      Val e inner.degrees (fun t => coord (inner.value t) d) ∧
      Val e' inner.degrees (fun t => 1 - coord (inner.value t) d) := by
  obtain ⟨e, e1, e2, e3, e4⟩ := extractDimension_ok hi d
  have he : Val e inner.degrees (fun t => coord (inner.value t) d) := ⟨e2, e3, fun t _ => e4 t⟩
  obtain ⟨e', h1, h2⟩ := pointSub_ok he 1
  exact ⟨e, e', e1, h1, he, h2⟩

omit [CharZero K] [LinearOrder K] [IsStrictOrderedRing K] [Module K W] [LawfulCoords K W] [AddCommGroup W] in
theorem hbFns_bern {ps : List ℕ} (w : W) (hn : ps.length = Coords.n K W) (x y : ℕ → K)
    (hx : ∀ d : Fin (Coords.n K W), x d = coord w d ∧ y d = 1 - coord w d) :
    hbFns ps x y = bernFns ps (coordList K w) := by
  apply List.ext_getElem?
  intro d
  by_cases hd : d < ps.length
  · have hw : (coordList K w)[d]? = some (coord w (⟨d, by omega⟩ : Fin (Coords.n K W))) := by
      unfold coordList
      rw [List.getElem?_map, List.getElem?_eq_getElem (by simp; omega)]
      simp
    rw [hbFns_getElem? (List.getElem?_eq_getElem hd), bernFns_getElem? (List.getElem?_eq_getElem hd) hw]
    have := hx ⟨d, by omega⟩
    simp only at this
    rw [this.1, this.2]
    rfl
  · rw [List.getElem?_eq_none (by rw [hbFns_length]; omega),
      List.getElem?_eq_none (by rw [bernFns_length (by rw [coordList_length, hn])]; omega)]

theorem compose_ok {cfg : Cfg} (hc : cfg.Ok) {s : Spline V} {inner : Spline W} (hs : s.WF) (hi : inner.WF)
    (hn : s.dim = Coords.n K W)
    (hcube : ∀ x ∈ inner.cps, ∀ j : Fin (Coords.n K W), (0 : K) ≤ coord x j ∧ (coord x j : K) ≤ 1)
    (hps : DegOk cfg s.degrees) (hd : DegOk cfg (inner.degrees.map (s.degrees.sum * ·))) :
    ∃ r, compose K cfg s inner = .ok r ∧ r.WF ∧ r.degrees = inner.degrees.map (s.degrees.sum * ·) ∧
      ∀ t : List K, t.length = inner.dim → r.value t = s.value (coordList K (inner.value t)) := by
  obtain ⟨b, f1, f2⟩ := fitsIntoUnitCube_ok (K := K) hi
  obtain rfl : b = true := f2.mpr hcube
  unfold compose
  rw [f1]
  simp only [bind_ok, Bool.not_true, Bool.false_eq_true, if_false]
  obtain ⟨r, h1, h2, h3, h4⟩ := composeNumerator_ok (K := K) hc hs hi.dim_pos
    (extract := fun d => extractDimension K inner d) (inverse := fun e => pointSub (1 : K) e)
    (x := fun d t => if h : d < Coords.n K W then coord (inner.value t) ⟨d, h⟩ else 0)
    (y := fun d t => if h : d < Coords.n K W then 1 - coord (inner.value t) ⟨d, h⟩ else 0)
    (by
      intro d hd
      have hd' : d < Coords.n K W := by omega
      simp only [hd', dif_pos]
      exact poly_ext hi ⟨d, hd'⟩) hps hd
  refine ⟨r, h1, h2, h3, ?_⟩
  intro t ht
  rw [h4 t ht, hbFns_bern (inner.value t) hn, ← neval_eq_tens, ← value_eq_neval]
  intro d
  simp [d.2]

omit [AddCommGroup V] [Module K V] in
theorem composeSensitivity_ok {cfg : Cfg} (hc : cfg.Ok) {s : Spline V} {inner : Spline W} (hs : s.WF) (hi : inner.WF)
    (hn : s.dim = Coords.n K W)
    (hcube : ∀ x ∈ inner.cps, ∀ j : Fin (Coords.n K W), (0 : K) ≤ coord x j ∧ (coord x j : K) ≤ 1)
    (hps : DegOk cfg s.degrees) (hd : DegOk cfg (inner.degrees.map (s.degrees.sum * ·))) :
    ∃ l, composeSensitivity K cfg s inner = .ok l ∧ l.length = size s.degrees ∧
      ∀ n, n < size s.degrees → ∃ r, l[n]? = some r ∧ r.WF ∧ r.degrees = inner.degrees.map (s.degrees.sum * ·) ∧
        ∀ t : List K, t.length = inner.dim →
          r.value t = pw (bernFns s.degrees (coordList K (inner.value t))) (unflat s.degrees n) := by
  obtain ⟨b, f1, f2⟩ := fitsIntoUnitCube_ok (K := K) hi
  obtain rfl : b = true := f2.mpr hcube
  unfold composeSensitivity
  rw [f1]
  simp only [bind_ok, Bool.not_true, Bool.false_eq_true, if_false]
  obtain ⟨l, h1, h2, h3⟩ := composeNumeratorSensitivity_ok (K := K) hc hs hi.dim_pos
    (extract := fun d => extractDimension K inner d) (inverse := fun e => pointSub (1 : K) e)
    (x := fun d t => if h : d < Coords.n K W then coord (inner.value t) ⟨d, h⟩ else 0)
    (y := fun d t => if h : d < Coords.n K W then 1 - coord (inner.value t) ⟨d, h⟩ else 0)
    (by
      intro d hd
      have hd' : d < Coords.n K W := by omega
      simp only [hd', dif_pos]
      exact poly_ext hi ⟨d, hd'⟩) hps hd
  refine ⟨l, h1, h2, ?_⟩
  intro n hnn
  obtain ⟨r, r1, r2⟩ := h3 n hnn
  refine ⟨r, r1, r2.wf, r2.deg, ?_⟩
  intro t ht
  rw [r2.val t (by simpa [dim] using ht), hbFns_bern (inner.value t) hn]
  intro d
  simp [d.2]

omit [CharZero K] in
theorem compose_throws {cfg : Cfg} {s : Spline V} {inner : Spline W} (hi : inner.WF)
    (hcube : ¬ ∀ x ∈ inner.cps, ∀ j : Fin (Coords.n K W), (0 : K) ≤ coord x j ∧ (coord x j : K) ≤ 1) :
    compose K cfg s inner = .error .throws ∧ composeSensitivity K cfg s inner = .error .throws := by
  obtain ⟨b, f1, f2⟩ := fitsIntoUnitCube_ok (K := K) hi
  have : b = false := by
    rw [Bool.eq_false_iff]; exact fun h => hcube (f2.mp h)
  subst this
  unfold compose composeSensitivity
  rw [f1]
  exact ⟨rfl, rfl⟩

end poly
end Spline
end Bezman
