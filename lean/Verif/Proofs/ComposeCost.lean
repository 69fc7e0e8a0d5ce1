import Verif.Proofs.Compose
import Verif.Spec.AnyArith

set_option linter.unusedSectionVars false

/-! # Counting operations of compositions in any arithmetic

`B a k s` stands for "the spline has `a` times the degrees of the inner spline and `k` roundings". -/

namespace Bezman
namespace Spline
open Spec Finset
variable {K V : Type} [Zero K] [One K] [Add K] [Sub K] [Mul K] [Neg K] [Div K] [NatCast K]

/-- What one multiplication, and one multiplication by an integer, costs. -/
structure Costs (cfg : Cfg) (m P c : ℕ) (B : ℕ → ℕ → Spline K → Prop) : Prop where
  one : ∃ o, oneSpline (K := K) m = .ok o ∧ B 0 0 o
  mul : ∀ {a b j k : ℕ} {s t : Spline K}, B a j s → B b k t → a + b ≤ P → ∃ r, mulScalar cfg s t = .ok r ∧ B (a + b) (j + k + c) r
  smul : ∀ {a k : ℕ} {s : Spline K}, B a k s → ∀ n : ℕ, ∃ r, s.smulOp ((n : ℕ) : K) = .ok r ∧ B a (k + 2) r
  mono : ∀ {a j k : ℕ} {s : Spline K}, B a j s → j ≤ k → B a k s

variable {cfg : Cfg} {m P c : ℕ} {B : ℕ → ℕ → Spline K → Prop}

theorem Costs.bernstein (H : Costs cfg m P c B) (hc : cfg.Ok) {p k : ℕ} {e e' : Spline K}
    (he : B 1 k e) (he' : B 1 k e') (hp : p < cfg.maxBinom) (hpP : p ≤ P) :
    ∃ l, composeBernstein cfg p m e e' = .ok l ∧ l.length = p + 1 ∧
      ∀ i, i ≤ p → ∃ b, l[i]? = some b ∧ B p (p * (k + c) + c + 2) b := by
  unfold composeBernstein
  obtain ⟨o, o1, ho⟩ := H.one
  rw [o1]
  simp only [bind_ok]
  rw [wr_ok _ (by simp)]
  simp only [bind_ok]
  have step : ∀ i, 1 ≤ i → (i - 1) * (k + c) + k + c = i * (k + c) := by
    intro i hi
    obtain ⟨j, rfl⟩ : ∃ j, i = j + 1 := ⟨i - 1, by omega⟩
    rw [Nat.add_sub_cancel]; ring
  obtain ⟨⟨l1, m1⟩, a1, a2, a3, a4⟩ := loopFrom_inv (a := 1) (b := p + 1)
    (s := ((List.replicate (p + 1) (Spline.default m)).set 0 o, o))
    (f := fun i (r : List (Spline K) × Spline K) => do
      let m ← mulScalar cfg r.2 e
      let bs ← wr r.1 i m
      pure (bs, m))
    (P := fun j r => r.1.length = p + 1 ∧ (∀ i, i < j → ∃ b, r.1[i]? = some b ∧ B i (i * (k + c)) b) ∧
      B (j - 1) ((j - 1) * (k + c)) r.2)
    (by omega)
    ⟨by simp, by
      intro i hi
      obtain rfl : i = 0 := by omega
      exact ⟨o, by rw [List.getElem?_set_self (by simp)], by simpa using ho⟩, by simpa using ho⟩
    (by
      rintro j hj1 hj2 ⟨l, m⟩ ⟨b1, b2, b3⟩
      simp only at b1 b2 b3 ⊢
      obtain ⟨r, r1, r2⟩ := H.mul b3 he (by omega)
      rw [step j hj1, show j - 1 + 1 = j by omega] at r2
      rw [r1]
      simp only [bind_ok]
      rw [wr_ok _ (by omega)]
      refine ⟨_, rfl, by simpa using b1, ?_, by simpa using r2⟩
      intro i hi
      simp only
      by_cases hik : i = j
      · subst hik
        exact ⟨r, by rw [List.getElem?_set_self (by omega)], r2⟩
      · obtain ⟨b, hb1, hb2⟩ := b2 i (by omega)
        exact ⟨b, by rw [List.getElem?_set_ne (by omega)]; exact hb1, hb2⟩)
  rw [a1]
  simp only [bind_ok] at a2 a3 a4 ⊢
  obtain ⟨⟨l2, m2⟩, c1, c2, c3, c3', c4⟩ := loopFrom_inv (a := 1) (b := p + 1)
    (s := (l1, o))
    (f := fun i (r : List (Spline K) × Spline K) => do
      let m ← mulScalar cfg r.2 e'
      let b ← rd r.1 (p - i)
      let b ← mulScalar cfg b m
      let bs ← wr r.1 (p - i) b
      pure (bs, m))
    (P := fun j r => r.1.length = p + 1 ∧
      (∀ i, i ≤ p → p < i + j → ∃ b, r.1[i]? = some b ∧ B p (p * (k + c) + c) b) ∧
      (∀ i, i + j ≤ p → ∃ b, r.1[i]? = some b ∧ B i (i * (k + c)) b) ∧
      B (j - 1) ((j - 1) * (k + c)) r.2)
    (by omega)
    ⟨a2, by
      intro i hi1 hi2
      obtain rfl : i = p := by omega
      obtain ⟨b, hb1, hb2⟩ := a3 i (by omega)
      exact ⟨b, hb1, H.mono hb2 (by omega)⟩, fun i hi => a3 i (by omega), by simpa using ho⟩
    (by
      rintro j hj1 hj2 ⟨l, m⟩ ⟨b1, b2, b2', b3⟩
      simp only at b1 b2 b2' b3 ⊢
      obtain ⟨r, r1, r2⟩ := H.mul b3 he' (by omega)
      rw [step j hj1, show j - 1 + 1 = j by omega] at r2
      rw [r1]
      simp only [bind_ok]
      obtain ⟨b, hb1, hb2⟩ := b2' (p - j) (by omega)
      rw [rd_ok hb1]
      simp only [bind_ok]
      obtain ⟨u, u1, u2⟩ := H.mul hb2 r2 (by omega)
      rw [show p - j + j = p by omega, ← Nat.add_mul, show p - j + j = p by omega] at u2
      rw [u1]
      simp only [bind_ok]
      rw [wr_ok _ (by omega)]
      refine ⟨_, rfl, by simpa using b1, ?_, ?_, by simpa using r2⟩
      · intro i hi1 hi2
        simp only
        by_cases hik : i = p - j
        · subst hik
          exact ⟨u, by rw [List.getElem?_set_self (by omega)], u2⟩
        · obtain ⟨b, hb1, hb2⟩ := b2 i hi1 (by omega)
          exact ⟨b, by rw [List.getElem?_set_ne (by omega)]; exact hb1, hb2⟩
      · intro i hi
        simp only
        obtain ⟨b, hb1, hb2⟩ := b2' i (by omega)
        exact ⟨b, by rw [List.getElem?_set_ne (by omega)]; exact hb1, hb2⟩)
  rw [c1]
  simp only [bind_ok] at c2 c3 c3' c4 ⊢
  by_cases hp1 : p ≤ 1
  · rw [loopFrom_empty hp1]
    refine ⟨_, rfl, c2, ?_⟩
    intro i hi
    obtain ⟨b, hb1, hb2⟩ := c3 i hi (by omega)
    exact ⟨b, hb1, H.mono hb2 (by omega)⟩
  · obtain ⟨l3, f1, f2, f3, f4⟩ := loopFrom_inv (a := 1) (b := p)
      (s := l2)
      (f := fun i bs => do
        let b ← rd bs (p - i)
        let c ← choose cfg p i
        let b ← b.smulOp ((c : Nat) : K)
        wr bs (p - i) b)
      (P := fun j l => l.length = p + 1 ∧
        (∀ i, i < p → p < i + j → ∃ b, l[i]? = some b ∧ B p (p * (k + c) + c + 2) b) ∧
        (∀ i, i ≤ p → (i = p ∨ i + j ≤ p) → ∃ b, l[i]? = some b ∧ B p (p * (k + c) + c) b))
      (by omega)
      ⟨c2, fun i h1 h2 => by omega, fun i h1 _ => c3 i h1 (by omega)⟩
      (by
        rintro j hj1 hj2 l ⟨b1, b2, b3⟩
        obtain ⟨b, hb1, hb2⟩ := b3 (p - j) (by omega) (Or.inr (by omega))
        rw [rd_ok hb1]
        simp only [bind_ok]
        rw [choose_ok hc hp (by omega)]
        simp only [bind_ok]
        obtain ⟨u, u1, u2⟩ := H.smul hb2 (p.choose j)
        rw [u1]
        simp only [bind_ok]
        refine ⟨_, wr_ok _ (by omega), by simpa using b1, ?_, ?_⟩
        · intro i hi1 hi2
          by_cases hik : i = p - j
          · subst hik
            exact ⟨u, by rw [List.getElem?_set_self (by omega)], u2⟩
          · obtain ⟨b, hb1, hb2⟩ := b2 i hi1 (by omega)
            exact ⟨b, by rw [List.getElem?_set_ne (by omega)]; exact hb1, hb2⟩
        · intro i hi1 hi2
          obtain ⟨b, hb1, hb2⟩ := b3 i hi1 (by omega)
          exact ⟨b, by rw [List.getElem?_set_ne (by omega)]; exact hb1, hb2⟩)
    rw [f1]
    refine ⟨_, rfl, f2, ?_⟩
    intro i hi
    by_cases hi0 : i = p ∨ i + p ≤ p
    · obtain ⟨b, hb1, hb2⟩ := f4 i hi hi0
      exact ⟨b, hb1, H.mono hb2 (by omega)⟩
    · exact f3 i (by omega) (by omega)

theorem Costs.bases (H : Costs cfg m P c B) (hc : cfg.Ok) {ps : List ℕ} {k : ℕ} {extract : ℕ → M (Spline K)} {inverse : Spline K → M (Spline K)}
    (hext : ∀ d, d < ps.length → ∃ e e', extract d = .ok e ∧ inverse e = .ok e' ∧ B 1 k e ∧ B 1 k e')
    (hps : ∀ p ∈ ps, p < cfg.maxBinom) (hP : ∀ p ∈ ps, p ≤ P) :
    ∃ bases, composeBases cfg ps m extract inverse = .ok bases ∧ bases.length = ps.length ∧ ∀ d p : ℕ, ps[d]? = some p → ∃ l : List (Spline K), bases[d]? = some l ∧
      ∀ i, i ≤ p → ∃ b, l[i]? = some b ∧ B p (p * (k + c) + c + 2) b := by
  unfold composeBases
  obtain ⟨l, h1, h2, h3⟩ := loop_inv (n := ps.length) (s := List.replicate ps.length ([] : List (Spline K)))
    (f := fun d (l : List (List (Spline K))) => do
      let p ← rd ps d
      let e ← extract d
      let inv ← inverse e
      let bs ← composeBernstein cfg p m e inv
      wr l d bs)
    (P := fun j bases => bases.length = ps.length ∧ ∀ d p : ℕ, d < j → ps[d]? = some p → ∃ l : List (Spline K), bases[d]? = some l ∧
      ∀ i, i ≤ p → ∃ b, l[i]? = some b ∧ B p (p * (k + c) + c + 2) b)
    ⟨by simp, fun d p hd => by omega⟩
    (by
      rintro j hj l ⟨a1, a2⟩
      have hpk : ps[j]? = some ps[j] := List.getElem?_eq_getElem hj
      rw [rd_ok hpk]
      simp only [bind_ok]
      obtain ⟨e, e', e1, e2, e3, e4⟩ := hext j hj
      rw [e1]
      simp only [bind_ok]
      rw [e2]
      simp only [bind_ok]
      obtain ⟨bs, b1, b2, b3⟩ := H.bernstein hc e3 e4 (hps _ (List.getElem_mem hj)) (hP _ (List.getElem_mem hj))
      rw [b1]
      simp only [bind_ok]
      refine ⟨_, wr_ok _ (by omega), by simpa using a1, ?_⟩
      intro d p hdk hdp
      by_cases hdk' : d = j
      · subst hdk'
        rw [hpk] at hdp
        simp only [Option.some.injEq] at hdp
        subst hdp
        exact ⟨bs, by rw [List.getElem?_set_self (by omega)], b3⟩
      · obtain ⟨l', c1, c2⟩ := a2 d p (by omega) hdp
        exact ⟨l', by rw [List.getElem?_set_ne (by omega)]; exact c1, c2⟩)
  exact ⟨l, h1, h2, fun d p hdp => h3 d p (List.getElem?_eq_some_iff.mp hdp).1 hdp⟩

theorem Costs.tensor (H : Costs cfg m P c B) {ps idx : List ℕ} {k : ℕ} {bases : List (List (Spline K))} (hbl : bases.length = ps.length)
    (hb : ∀ d p : ℕ, ps[d]? = some p → ∃ l : List (Spline K), bases[d]? = some l ∧ ∀ i, i ≤ p → ∃ b, l[i]? = some b ∧ B p (p * k + c + 2) b)
    (hpos : 0 < ps.length) (hidx : ValidIdx ps idx) (hP : ps.sum ≤ P) :
    ∃ r, composeTensor cfg bases idx = .ok r ∧ B ps.sum (ps.sum * k + ps.length * (2 * c + 2)) r := by
  have hil := hidx.length
  have hidx' := (validIdx_iff.mp hidx).2
  have get : ∀ d (hd : d < ps.length), ∃ l b, bases[d]? = some l ∧ idx[d]? = some (idx[d]'(by omega)) ∧
      l[idx[d]'(by omega)]? = some b ∧ B ps[d] (ps[d] * k + c + 2) b := by
    intro d hd
    obtain ⟨l, l1, l2⟩ := hb d ps[d] (List.getElem?_eq_getElem hd)
    obtain ⟨b, b1, b2⟩ := l2 (idx[d]'(by omega)) (hidx' d _ _ (List.getElem?_eq_getElem (by omega))
      (List.getElem?_eq_getElem hd))
    exact ⟨l, b, l1, List.getElem?_eq_getElem (by omega), b1, b2⟩
  unfold composeTensor
  obtain ⟨l, b, g1, g2, g3, g4⟩ := get 0 hpos
  rw [rd_ok g1]
  simp only [bind_ok]
  rw [rd_ok g2]
  simp only [bind_ok]
  rw [rd_ok g3]
  simp only [bind_ok]
  rw [hbl]
  have hsum : ∀ k, k ≤ ps.length → (ps.take k).sum ≤ ps.sum := by
    intro k _
    conv_rhs => rw [← List.take_append_drop k ps, List.sum_append]
    omega
  obtain ⟨r, h1, h2⟩ := loopFrom_inv (a := 1) (b := ps.length) (s := b)
    (f := fun d t => do
      let b ← rd bases d
      let i ← rd idx d
      let x ← rd b i
      mulScalar cfg t x)
    (P := fun j r => B (ps.take j).sum ((ps.take j).sum * k + j * (2 * c + 2)) r)
    (by omega)
    (by
      rw [List.take_succ_eq_append_getElem hpos]
      simp only [List.take_zero, List.nil_append, List.sum_cons, List.sum_nil, add_zero]
      exact H.mono g4 (by omega))
    (by
      rintro j hj1 hj2 r hr
      obtain ⟨l, b, g1, g2, g3, g4⟩ := get j hj2
      rw [rd_ok g1]
      simp only [bind_ok]
      rw [rd_ok g2]
      simp only [bind_ok]
      rw [rd_ok g3]
      simp only [bind_ok]
      have hs : (ps.take (j + 1)).sum = (ps.take j).sum + ps[j] := by
        rw [List.take_succ_eq_append_getElem hj2, List.sum_append]; simp
      obtain ⟨u, u1, u2⟩ := H.mul hr g4 (by rw [← hs]; exact (hsum _ (by omega)).trans hP)
      refine ⟨u, u1, ?_⟩
      rw [hs]
      refine H.mono u2 (le_of_eq ?_)
      ring)
  rw [h1]
  rw [List.take_of_length_le (l := ps) le_rfl] at h2
  exact ⟨r, rfl, h2⟩

variable [Zero V] [Add V] [SMul K V]

theorem Costs.numerator {q : List ℕ} (hq : 0 < q.length) (H : Costs cfg q.length P c B) (hc : cfg.Ok) {s : Spline V} (h : s.WF) {k kO : ℕ} {extract : ℕ → M (Spline K)}
    {inverse : Spline K → M (Spline K)}
    (hext : ∀ d, d < s.dim → ∃ e e', extract d = .ok e ∧ inverse e = .ok e' ∧ B 1 k e ∧ B 1 k e')
    (hps : ∀ p ∈ s.degrees, p < cfg.maxBinom) (hP : s.degrees.sum ≤ P)
    {G : ℕ → K → Prop} {N : ℕ → V → Prop} (hB : ∀ {a k : ℕ} {s : Spline K}, B a k s → HasShape (q.map (a * ·)) s ∧ ∀ z ∈ s.cps, G k z)
    (hN0 : ∀ k, N k 0) (hN : ∀ {j k : ℕ} {b : K} {y : V}, G j b → N k y → N (j + k + 1) (b • y))
    (hNa : ∀ {k : ℕ} {x y : V}, N k x → N k y → N (k + 1) (x + y)) (hNm : ∀ {j k : ℕ} {x : V}, N j x → j ≤ k → N k x)
    (hs : ∀ z ∈ s.cps, N kO z) :
    ∃ r, composeNumerator cfg s q extract inverse = .ok r ∧ HasShape (q.map (s.degrees.sum * ·)) r ∧
      ∀ z ∈ r.cps, N (kO + s.degrees.sum * (k + c) + s.degrees.length * (2 * c + 2) + 1 + size s.degrees) z := by
  have hle : ∀ p ∈ s.degrees, p ≤ P := fun p hp => (List.le_sum_of_mem hp).trans hP
  obtain ⟨bases, b1, b2, b3⟩ := H.bases hc hext hps hle
  set J := kO + s.degrees.sum * (k + c) + s.degrees.length * (2 * c + 2) + 1 with hJ
  unfold composeNumerator
  have hdeg : composeDegrees s.degrees q = q.map (s.degrees.sum * ·) := by
    unfold composeDegrees; congr 1; funext a; exact mul_comm _ _
  rw [hdeg]
  set nd := q.map (s.degrees.sum * ·) with hnd
  simp only []
  obtain ⟨D, d1, d2, d3, d4⟩ := ofDegrees_ok (V := V) (ps := nd) (by simpa [hnd] using hq)
  rw [d1]
  simp only [bind_ok]
  rw [b1]
  simp only [bind_ok]
  obtain ⟨r, h1, h2, h3, h4⟩ := loop_inv (n := s.ncp) (s := D)
    (f := fun o ret => do
      let idx ← s.localToGlobal o
      let t ← composeTensor cfg bases idx
      assertM (nd == t.degrees)
      let cps ← loop ret.ncp (fun c cps => do
        let x ← rd cps c
        let b ← rd t.cps c
        let y ← rd s.cps o
        wr cps c (x + b • y)) ret.cps
      pure { ret with cps := cps })
    (P := fun j ret => ret.WF ∧ ret.degrees = nd ∧ ∀ z ∈ ret.cps, N (J + j) z)
    ⟨d2, d3, by
      intro z hz
      rw [d4] at hz
      simp only [tab, List.mem_map] at hz
      obtain ⟨i, -, rfl⟩ := hz
      exact hN0 _⟩
    (by
      rintro j hj ret ⟨r1, r2, r3⟩
      rw [localToGlobal_ok h]
      simp only [bind_ok]
      obtain ⟨T, t1, t2⟩ := H.tensor b2 b3 h.dim_pos (unflat_valid s.degrees j) hP
      obtain ⟨t3, t4⟩ := hB t2
      rw [t1]
      simp only [bind_ok]
      rw [assertM_ok (by rw [t3.2]; simp [hnd])]
      simp only [bind_ok]
      have hj' : j < s.cps.length := by rw [h.cps_len, ← h.ncp_eq]; exact hj
      have hyk : s.cps[j]? = some s.cps[j] := List.getElem?_eq_getElem hj'
      obtain ⟨l, e1, e2, e3⟩ := loop_inv (n := ret.ncp) (s := ret.cps)
        (f := fun c cps => do
          let x ← rd cps c
          let b ← rd T.cps c
          let y ← rd s.cps j
          wr cps c (x + b • y))
        (P := fun i l => l.length = ret.cps.length ∧ ∀ a z, l[a]? = some z → N (if a < i then J + (j + 1) else J + j) z)
        ⟨rfl, fun a z hz => by simpa using r3 z (List.mem_of_getElem? hz)⟩
        (by
          rintro i hi l ⟨l1, l2⟩
          have hil : i < l.length := by rw [l1, r1.cps_len, ← r1.ncp_eq]; exact hi
          have hiT : i < T.cps.length := by rw [t3.1.cps_len, t3.2, ← hnd, ← r2, ← r1.ncp_eq]; exact hi
          rw [rd_ok (List.getElem?_eq_getElem hil)]
          simp only [bind_ok]
          rw [rd_ok (List.getElem?_eq_getElem hiT)]
          simp only [bind_ok]
          rw [rd_ok hyk]
          simp only [bind_ok]
          refine ⟨_, wr_ok _ hil, by simpa using l1, ?_⟩
          intro a z hz
          by_cases hai : a = i
          · subst hai
            rw [List.getElem?_set_self hil] at hz
            cases hz
            rw [if_pos (by omega)]
            have hx := l2 a _ (List.getElem?_eq_getElem hil)
            rw [if_neg (by omega)] at hx
            refine hNa (k := J + j) hx (hNm (hN (t4 _ (List.getElem_mem hiT)) (hs _ (List.getElem_mem hj'))) ?_)
            omega
          · rw [List.getElem?_set_ne (by omega)] at hz
            have hx := l2 a z hz
            by_cases ha : a < i
            · rw [if_pos ha] at hx; rw [if_pos (by omega)]; exact hx
            · rw [if_neg ha] at hx; rw [if_neg (by omega)]; exact hx)
      rw [e1]
      simp only [bind_ok]
      refine ⟨_, rfl, ⟨r1.dim_pos, r1.ncp_eq, r1.offsets_eq, e2.trans r1.cps_len⟩, r2, ?_⟩
      intro z hz
      obtain ⟨a, ha⟩ := List.mem_iff_getElem?.mp hz
      have := e3 a z ha
      have hal := (List.getElem?_eq_some_iff.mp ha).1
      simp only at hal
      rw [if_pos (by rw [r1.ncp_eq, ← r1.cps_len, ← e2]; exact hal)] at this
      exact this)
  rw [h1]
  refine ⟨r, rfl, ⟨h2, h3⟩, ?_⟩
  rw [← h.ncp_eq]
  exact h4

end Spline
end Bezman
