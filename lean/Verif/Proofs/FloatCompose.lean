import Verif.Proofs.FloatProducts
import Verif.Proofs.ComposeCost
import Verif.Proofs.MapOps

set_option linter.unusedSectionVars false

/-! # Rounding errors of compositions -/

namespace Bezman
open Spec Finset

namespace Spline

/-! ## compositions of constants -/
section
variable {K V : Type} [Field K] [CharZero K] [AddCommGroup V] [Module K V]

theorem hb_sum (p : ℕ) (x y : K) : ∑ i ∈ range (p + 1), hb p i x y = (x + y) ^ p := by
  rw [add_pow]
  exact sum_congr rfl fun i _ => by unfold hb; ring

theorem tens_power {σ : K} (v : V) {ps : List ℕ} {bs : List (ℕ → K)} (h : List.Forall₂ (fun p b => ∑ i ∈ range (p + 1), b i = σ ^ p) ps bs) :
    tens ps bs (fun _ => v) = σ ^ ps.sum • v := by
  induction h with
  | nil => simp
  | cons hb _ ih => rw [tens_cons, ih, ← sum_smul, hb, List.sum_cons, pow_add, mul_smul]

theorem composeNumerator_const {cfg : Cfg} (hc : cfg.Ok) {s : Spline V} (h : s.WF) {v : V} (hv : ∀ x ∈ s.cps, x = v) {q : List ℕ}
    (hq : 0 < q.length) {extract : ℕ → M (Spline K)} {inverse : Spline K → M (Spline K)} {σ : K}
    (hext : ∀ d, d < s.dim → ∃ e, extract d = .ok e ∧ HasShape q e ∧ inverse e = .ok (e.map fun z => σ - z))
    (hps : DegOk cfg s.degrees) (hd : DegOk cfg (q.map (s.degrees.sum * ·))) :
    ∃ r, composeNumerator cfg s q extract inverse = .ok r ∧ ∀ x ∈ r.cps, x = σ ^ s.degrees.sum • v := by
  let x : ℕ → List K → K := fun d t => match extract d with
    | .ok e => e.value t
    | .error _ => 0
  obtain ⟨r, r1, r2, r3, r4⟩ := composeNumerator_ok hc h hq (extract := extract) (inverse := inverse) (x := x) (y := fun d t => σ - x d t)
    (fun d hd => by
      obtain ⟨e, e1, ⟨e2, e3⟩, e4⟩ := hext d hd
      refine ⟨e, _, e1, e4, ⟨e2, e3, fun t _ => by simp only [x, e1]⟩, ⟨e2.map _, e3, fun t ht => ?_⟩⟩
      simp only [x, e1]
      have hm := e2.cps_tab
      rw [value_of_tab (s := e.map fun z => σ - z) (F := fun i => σ + (-1 : K) • e.cps.getD i 0)
        (by show e.cps.map _ = tab (size e.degrees) _; conv_lhs => rw [hm]
            simp only [tab, List.map_map]
            exact List.map_congr_left fun i _ => by simp [sub_eq_add_neg])]
      show neval e.degrees t _ = _
      rw [neval_add, neval_const (by rw [e3]; exact ht), neval_smul, value_eq_neval]
      simp [sub_eq_add_neg]) hps hd
  refine ⟨r, r1, Spline.const_of_computes (K := K) (ds := q.map (s.degrees.sum * ·)) ?_⟩
  refine Spline.Computes.mk' r2 r3 fun t ht => ?_
  rw [r4 t (by simpa using ht), tens_congr (G := fun _ => v) (fun j hj => by
    have : j < s.cps.length := by rw [h.cps_len]; exact hj
    rw [List.getD_eq_getElem?_getD, List.getElem?_eq_getElem this, Option.getD_some]
    exact hv _ (List.getElem_mem _))]
  refine tens_power v ?_
  rw [List.forall₂_iff_get]
  refine ⟨(hbFns_length _ _ _).symm, fun i h1 h2 => ?_⟩
  have := hbFns_getElem? (List.getElem?_eq_getElem h1) (fun d => x d t) (fun d => σ - x d t)
  obtain ⟨h3, h4⟩ := List.getElem?_eq_some_iff.mp this
  simp only [List.get_eq_getElem]
  rw [h4, hb_sum]
  congr 1; ring

end

/-- Only the calls that happen matter. -/
theorem composeNumerator_congr' {K V : Type} [Zero K] [One K] [Add K] [Sub K] [Mul K] [Neg K] [Div K] [NatCast K] [Zero V] [Add V] [SMul K V]
    {cfg : Cfg} (s : Spline V) (q : List ℕ) {ex ex' : ℕ → M (Spline K)} {inv inv' : Spline K → M (Spline K)}
    (h : ∀ d < s.degrees.length, ∃ e i, ex d = .ok e ∧ ex' d = .ok e ∧ inv e = .ok i ∧ inv' e = .ok i) :
    composeNumerator cfg s q ex inv = composeNumerator cfg s q ex' inv' := by
  have : ∀ n, composeBases cfg s.degrees n ex inv = composeBases cfg s.degrees n ex' inv' := by
    intro n
    unfold composeBases
    refine loop_congr fun d hd l => ?_
    obtain ⟨e, i, h1, h2, h3, h4⟩ := h d hd
    rw [h1, h2]
    simp only [bind_ok]
    rw [h3, h4]
  unfold composeNumerator
  rw [this]

theorem pointSub_eq {K : Type} [Sub K] [Neg K] {e : Spline K} (he : e.WF) (c : K) : pointSub c e = .ok (e.map fun x => -(x - c)) := by
  unfold pointSub subPoint
  rw [mapCps_ok he]
  simp only [bind_ok]
  rw [negOp_ok (he.map _)]
  simp [Spline.map]

end Spline

variable {A : FloatArith} {n : ℕ}

/-- Cost of one product in a composition: the degrees are multiples of those of the inner spline. -/
theorem min_prod_le {P : ℕ} : ∀ (q : List ℕ) {a b : ℕ}, a + b ≤ P →
    (List.zipWith (fun p q => min p q + 1) (q.map (a * ·)) (q.map (b * ·))).prod ≤ size (q.map (P / 2 * ·))
  | [], _, _, _ => by simp
  | x :: q, a, b, h => by
    simp only [List.map_cons, List.zipWith_cons_cons, List.prod_cons, size_cons]
    refine Nat.mul_le_mul ?_ (min_prod_le q h)
    rcases le_total a b with hab | hab
    · have : a ≤ P / 2 := by omega
      exact Nat.succ_le_succ ((min_le_left _ _).trans (Nat.mul_le_mul_right x this))
    · have : b ≤ P / 2 := by omega
      exact Nat.succ_le_succ ((min_le_right _ _).trans (Nat.mul_le_mul_right x this))

namespace Tri
attribute [local instance] parTriX parScalarTriX parTriY parScalarTriY

theorem costs (hη : A.η = 0) (hu : A.u ≤ 1 / 2) {cfg : Cfg} (hmax : cfg.maxBinom ≤ 68) {q : List ℕ} (hq : 0 < q.length) {P : ℕ}
    (hdeg : ∀ x ∈ q, P * x < cfg.maxBinom) :
    Spline.Costs cfg q.length P (5 * q.length + 2 + size (q.map (P / 2 * ·)))
      (fun a k (s : Spline (Tri A)) => HasShape (q.map (a * ·)) s ∧ ∀ z ∈ s.cps, Near k z) where
  one := by
    have h := Spline.ofPoints_ok (ps := List.replicate q.length 0) (pts := [(1 : Tri A)]) (by simpa using hq) (by simp [Spline.size_replicate_zero])
    refine ⟨_, h.1, ⟨h.2, ?_⟩, ?_⟩
    · show List.replicate q.length 0 = _
      rw [Spline.map_zero_mul]
    · intro z hz
      rw [List.mem_singleton.mp hz]
      exact Near.one
  mul := by
    rintro a b j k s t ⟨hs, hs'⟩ ⟨ht, ht'⟩ hab
    have hdim : (q.map (b * ·)).length = (q.map (a * ·)).length := by simp
    have hsum : sumDegrees (q.map (a * ·)) (q.map (b * ·)) = q.map ((a + b) * ·) := Spline.zipWith_map_mul _ _ _
    obtain ⟨r, hr, hr'⟩ := Spline.mulOp_returns (K := Tri A) cfg hmax (fun a b => a * b) hs ht hdim (by
      rw [hsum]
      intro p hp
      obtain ⟨x, hx, rfl⟩ := List.mem_map.mp hp
      exact (Nat.mul_le_mul_right x hab).trans_lt (hdeg x hx))
    refine ⟨r, hr, hsum ▸ hr', fun z hz => ?_⟩
    have hd1 : s.dim = q.length := by show s.degrees.length = _; rw [hs.2]; simp
    have hd2 : t.dim = q.length := by show t.degrees.length = _; rw [ht.2]; simp
    have := Spline.mulOp_graded hmax (L := Near 4) (F := fun j => Near (5 * j)) (T := Near (j + k + 5 * s.dim + 2))
      (G := fun i => Near (j + k + 5 * s.dim + 2 + i)) (fun c d hd => Near.ratio hη hu c hd) Near.one
      (fun j a b ha hb => (Near.mul hη ha hb).mono (by omega)) (fun a l x y h1 h2 h3 h4 => by
        have h5 := Near.mul hη h2 (Near.mul hη h1 (Near.mul hη (hs' x h3) (ht' y h4)))
        exact h5.mono (by omega)) (Near.zero' _)
      (fun j x t hx ht => Near.addMono hx ht) (fun j x hx => hx.mono (by omega)) (by omega) (by omega) hr z hz
    refine this.mono ?_
    have hp := min_prod_le (P := P) q hab
    rw [hs.2, ht.2]
    have : (Spline.prodTerms (q.map (a * ·)) (q.map (b * ·))).prod ≤ size (q.map (P / 2 * ·)) := hp
    omega
  smul := by
    rintro a k s ⟨hs, hs'⟩ c
    obtain ⟨r, hr, hr'⟩ := Spline.smulOp_returns (K := Tri A) hs ((c : ℕ) : Tri A)
    refine ⟨r, hr, hr', Spline.smulOp_cps hs.1 hr hs' fun z hz => ?_⟩
    exact (Near.mul hη (Near.cast c) hz).mono (by omega)
  mono := fun h hjk => ⟨h.1, fun z hz => (h.2 z hz).mono hjk⟩


/-- the complement of a coordinate; the bounds of both add up to `σ` -/
noncomputable def compl (σ : ℝ) (z : Tri A) : Tri A := ⟨-(z.x - 1), -(z.y - 1), σ - z.m⟩

theorem rel_eq {V V' : Type} [Par V V'] {g : V → V'} (hg : ∀ (a : V) (b : V'), a ≋ b ↔ b = g a) {e : Spline V} {e' : Spline V'} (h : e ≋ e') :
    e' = e.map g := eq_spline_map (fun a b => (hg a b).1) h

/-- the calls of a composition whose coordinates are given -/
def given {K : Type} (m : ℕ) (E : ℕ → Spline K) (d : ℕ) : M (Spline K) := if d < m then .ok (E d) else .error .ub

section
variable {K K' V V' : Type} [Par K K'] [Par V V'] [Zero K] [One K] [Add K] [Sub K] [Mul K] [Neg K] [Div K] [NatCast K]
  [Zero K'] [One K'] [Add K'] [Sub K'] [Mul K'] [Neg K'] [Div K'] [NatCast K'] [hk : ParScalar K K']
  [Zero V] [Add V] [Sub V] [Neg V] [SMul K V] [Zero V'] [Add V'] [Sub V'] [Neg V'] [SMul K' V'] [hp : ParPoint K K' V V']
  {f : K → K'} {g : V → V'} (hf : ∀ (a : K) (b : K'), a ≋ b ↔ b = f a) (hg : ∀ (a : V) (b : V'), a ≋ b ↔ b = g a)
include hk hp hf hg

theorem given_map (cfg : Cfg) (s : Spline V) (q : List ℕ) (m : ℕ) (E : ℕ → Spline K) {φ : K → K} {φ' : K' → K'} (hφ : ∀ z, f (φ z) = φ' (f z)) :
    Spline.composeNumerator cfg (s.map g) q (given m fun d => (E d).map f) (fun e => .ok (e.map φ')) =
      (Spline.composeNumerator cfg s q (given m E) (fun e => .ok (e.map φ))).map (Spline.map g) := by
  refine Spline.to_map hg (Spline.parComposeNumerator (K := K) (K' := K') cfg (Spline.rel_map hg s) q (fun d => ?_) fun e e' he => ?_)
  · unfold given
    split
    · exact .ok (Spline.rel_map hf _)
    · exact .err _
  · rw [rel_eq hf he]
    refine .ok ?_
    have := Spline.rel_map hf (e.map φ)
    have e1 : (e.map φ).map f = (e.map f).map φ' := by
      simp [Spline.map, hφ, Function.comp_def]
    rwa [e1] at this
end

section
variable (hη : A.η = 0) (hu : A.u ≤ 1 / 2) {cfg : Cfg} (hmax : cfg.maxBinom ≤ 68) {dO dI : List ℕ} (hI : 0 < dI.length)
  (hdeg : ∀ p ∈ dO, p < cfg.maxBinom) (hdeg' : ∀ q ∈ dI, dO.sum * q < cfg.maxBinom) {kO kI : ℕ} {σ : ℝ} {E : ℕ → Spline (Tri A)}
  (hE : ∀ d < dO.length, HasShape dI (E d) ∧ ∀ z ∈ (E d).cps, Near kI z ∧ Near (kI + 1) (compl σ z))
include hη hu hmax hI hdeg hdeg' hE

theorem compose_near {V : Type} [Zero V] [Add V] [SMul (Tri A) V] {S : Spline V} (hS : HasShape dO S)
    {N : ℕ → V → Prop} (hN0 : ∀ k, N k 0) (hN : ∀ {j k : ℕ} {b : Tri A} {y : V}, Near j b → N k y → N (j + k + 1) (b • y))
    (hNa : ∀ {k : ℕ} {x y : V}, N k x → N k y → N (k + 1) (x + y)) (hNm : ∀ {j k : ℕ} {x : V}, N j x → j ≤ k → N k x)
    (hs : ∀ z ∈ S.cps, N kO z) :
    ∃ r, Spline.composeNumerator cfg S dI (given dO.length E) (fun e => .ok (e.map (compl σ))) = .ok r ∧
      HasShape (dI.map (dO.sum * ·)) r ∧ ∀ z ∈ r.cps, N (composeRoundings dO dI kO kI) z := by
  obtain ⟨hS, rfl⟩ := hS
  obtain ⟨r, h1, h2, h3⟩ := Spline.Costs.numerator (k := kI + 1) (kO := kO) hI (costs (A := A) hη hu hmax hI hdeg') hmax hS
    (extract := given S.degrees.length E) (inverse := fun e => .ok (e.map (compl σ))) (fun d hd => by
      obtain ⟨e1, e2⟩ := hE d hd
      refine ⟨E d, _, if_pos hd, rfl, ?_, ?_⟩
      · exact ⟨by rw [Spline.map_one_mul]; exact e1, fun z hz => (e2 z hz).1.mono (Nat.le_succ _)⟩
      · refine ⟨by rw [Spline.map_one_mul]; exact ⟨e1.1.map _, e1.2⟩, fun z hz => ?_⟩
        obtain ⟨w, hw, rfl⟩ := List.mem_map.mp hz
        exact (e2 w hw).2) hdeg le_rfl (G := Near) (N := N) (fun h => h) hN0 hN hNa hNm hs
  exact ⟨r, h1, h2, h3⟩
end

end Tri

/-! ## the bounds -/
namespace Tri
section
local instance parTriM : Par (Tri A) ℝ := parMap Tri.m
local instance parScalarTriM : ParScalar (Tri A) ℝ := scalarM

variable {cfg : Cfg} (hmax : cfg.maxBinom ≤ 68) {dO dI : List ℕ} (hI : 0 < dI.length)
  (hdeg : ∀ p ∈ dO, p < cfg.maxBinom) (hdeg' : ∀ q ∈ dI, dO.sum * q < cfg.maxBinom) {σ : ℝ} {E : ℕ → Spline (Tri A)}
  (hE : ∀ d < dO.length, HasShape dI (E d))
include hmax hI hdeg hdeg' hE

theorem compose_m {V V' : Type} [Zero V] [Add V] [Sub V] [Neg V] [SMul (Tri A) V] [AddCommGroup V'] [Module ℝ V'] [Par V V']
    [ParPoint (Tri A) ℝ V V'] {g : V → V'} (hg : ∀ (a : V) (b : V'), a ≋ b ↔ b = g a) {S r : Spline V} (hS : HasShape dO S) {v : V'}
    (hv : ∀ z ∈ S.cps, g z = v)
    (hr : Spline.composeNumerator cfg S dI (given dO.length E) (fun e => .ok (e.map (compl σ))) = .ok r) :
    ∀ z ∈ r.cps, g z = σ ^ dO.sum • v := by
  obtain ⟨hS, rfl⟩ := hS
  have e := given_map (K := Tri A) (K' := ℝ) m_iff hg cfg S dI S.degrees.length E (φ := compl σ) (φ' := fun z => σ - z) (fun _ => rfl)
  obtain ⟨r', h1, h2⟩ := Spline.composeNumerator_const (K := ℝ) hmax (s := S.map g) (hS.map _) (v := v) (by simpa [Spline.map] using hv) hI
    (extract := given S.degrees.length fun d => (E d).map Tri.m) (inverse := fun e => .ok (e.map fun z => σ - z)) (σ := σ)
    (fun d hd => ⟨_, if_pos hd, ⟨(hE d hd).1.map _, (hE d hd).2⟩, rfl⟩) hdeg (by
      intro p hp
      obtain ⟨x, hx, rfl⟩ := List.mem_map.mp hp
      exact hdeg' x hx)
  rw [h1, hr] at e
  obtain rfl : r' = r.map g := Except.ok.inj e
  intro z hz
  exact h2 _ (List.mem_map.mpr ⟨z, hz, rfl⟩)

/-- scalar-valued outer splines -/
theorem compose_m_scalar {S r : Spline (Tri A)} (hS : HasShape dO S) {M : ℝ} (hv : ∀ z ∈ S.cps, z.m = M)
    (hr : Spline.composeNumerator cfg S dI (given dO.length E) (fun e => .ok (e.map (compl σ))) = .ok r) :
    ∀ z ∈ r.cps, z.m = σ ^ dO.sum * M :=
  compose_m hmax hI hdeg hdeg' hE (V' := ℝ) m_iff hS hv hr

/-- point-valued outer splines -/
theorem compose_m_points {S r : Spline (Point (Tri A) n)} (hS : HasShape dO S) {M : Fin n → ℝ} (hv : ∀ z ∈ S.cps, ∀ c, (z.val c).m = M c)
    (hr : Spline.composeNumerator cfg S dI (given dO.length E) (fun e => .ok (e.map (compl σ))) = .ok r) :
    ∀ z ∈ r.cps, ∀ c, (z.val c).m = σ ^ dO.sum * M c := by
  intro z hz c
  have := compose_m hmax hI hdeg hdeg' hE (V' := Point ℝ n) m_iffP hS (v := ⟨M⟩)
    (fun z hz => Point.ext (funext fun c => hv z hz c)) hr z hz
  have := congrArg (fun p : Point ℝ n => p.val c) this
  simpa [Point.map, mul_comm] using this
end
end Tri

/-! ## both runs -/
section
attribute [local instance] parTriX parScalarTriX parTriY parScalarTriY
open Tri

variable (hη : A.η = 0) (hu : A.u ≤ 1 / 2) {cfg : Cfg} (hmax : cfg.maxBinom ≤ 68) {dO dI : List ℕ} (hI : 0 < dI.length)
  (hdeg : ∀ p ∈ dO, p < cfg.maxBinom) (hdeg' : ∀ q ∈ dI, dO.sum * q < cfg.maxBinom) {kO kI : ℕ} {σ : ℝ} {E : ℕ → Spline (Tri A)}
  (hE : ∀ d < dO.length, HasShape dI (E d) ∧ ∀ z ∈ (E d).cps, Near kI z ∧ Near (kI + 1) (compl σ z))
  {ex : ℕ → M (Spline (Fl A))} {ex' : ℕ → M (Spline ℝ)} (hex : ∀ d < dO.length, ex d = .ok ((E d).map Tri.x))
  (hex' : ∀ d < dO.length, ex' d = .ok ((E d).map Tri.y))
include hη hu hmax hI hdeg hdeg' hE hex hex'

theorem given_calls {K V : Type} [Zero K] [One K] [Add K] [Sub K] [Mul K] [Neg K] [Div K] [NatCast K] [Zero V] [Add V] [SMul K V]
    {s : Spline V} {e : ℕ → Spline K} {ex : ℕ → M (Spline K)} (he : ∀ d < s.degrees.length, (e d).WF)
    (hex : ∀ d < s.degrees.length, ex d = .ok (e d)) (q : List ℕ) :
    Spline.composeNumerator cfg s q ex (fun e => Spline.pointSub (1 : K) e) =
      Spline.composeNumerator cfg s q (given s.degrees.length e) (fun e => .ok (e.map fun x => -(x - 1))) :=
  Spline.composeNumerator_congr' s q fun d hd => ⟨e d, _, hex d hd, if_pos hd, Spline.pointSub_eq (he d hd) 1, rfl⟩

theorem composeNumerator_approx {M : ℝ} {s : Spline (Fl A)} {s' : Spline ℝ} (h : s.Approx dO kO M s') :
    ApproxRuns (dI.map (dO.sum * ·)) (composeRoundings dO dI kO kI) (σ ^ dO.sum * M)
      (Spline.composeNumerator cfg s dI ex (fun e => Spline.pointSub (1 : Fl A) e))
      (Spline.composeNumerator cfg s' dI ex' (fun e => Spline.pointSub (1 : ℝ) e)) := by
  obtain ⟨S, ⟨a1, rfl⟩, rfl, rfl, a2⟩ := ofApprox h
  rw [given_calls hη hu hmax hI hdeg hdeg' hE hex hex' (s := S.map Tri.x) (fun d hd => (hE d hd).1.1.map _) hex,
    given_calls hη hu hmax hI hdeg hdeg' hE hex hex' (s := S.map Tri.y) (fun d hd => (hE d hd).1.1.map _) hex']
  obtain ⟨r, h1, h2, h3⟩ := compose_near hη hu hmax hI hdeg hdeg' hE (kO := kO) ⟨a1, rfl⟩ (N := Near) Near.zero' (fun h1 h2 => Near.mul hη h1 h2) Near.add
    (fun h hjk => h.mono hjk) (fun z hz => NearM.toNear (a2 z hz))
  have h4 := compose_m_scalar hmax hI hdeg hdeg' (fun d hd => (hE d hd).1) ⟨a1, rfl⟩ (fun z hz => (a2 z hz).2) h1
  refine Both.approx ⟨r, ?_, ?_, h2, fun z hz => Near.toM (h3 z hz) (h4 z hz)⟩
  · have := given_map (K := Tri A) (K' := Fl A) x_iff x_iff cfg S dI S.degrees.length E (φ := compl σ) (φ' := fun x => -(x - 1)) (fun _ => rfl)
    rw [h1] at this; exact this
  · have := given_map (K := Tri A) (K' := ℝ) y_iff y_iff cfg S dI S.degrees.length E (φ := compl σ) (φ' := fun x => -(x - 1)) (fun _ => rfl)
    rw [h1] at this; exact this

theorem composeNumerator_approxPoints {M : Fin n → ℝ} {s : Spline (Point (Fl A) n)} {s' : Spline (Point ℝ n)} (h : s.ApproxPoints dO kO M s') :
    ApproxRunsPoints (dI.map (dO.sum * ·)) (composeRoundings dO dI kO kI) (fun c => σ ^ dO.sum * M c)
      (Spline.composeNumerator cfg s dI ex (fun e => Spline.pointSub (1 : Fl A) e))
      (Spline.composeNumerator cfg s' dI ex' (fun e => Spline.pointSub (1 : ℝ) e)) := by
  obtain ⟨S, ⟨a1, rfl⟩, rfl, rfl, a2⟩ := ofApproxPoints h
  rw [given_calls hη hu hmax hI hdeg hdeg' hE hex hex' (s := S.map (Point.map Tri.x)) (fun d hd => (hE d hd).1.1.map _) hex,
    given_calls hη hu hmax hI hdeg hdeg' hE hex hex' (s := S.map (Point.map Tri.y)) (fun d hd => (hE d hd).1.1.map _) hex']
  obtain ⟨r, h1, h2, h3⟩ := compose_near hη hu hmax hI hdeg hdeg' hE (kO := kO) ⟨a1, rfl⟩ (N := fun k (z : Point (Tri A) n) => ∀ c, Near k (z.val c))
    (fun k c => Near.zero' k) (fun h1 h2 c => Near.mul' hη h1 (h2 c)) (fun h1 h2 c => Near.add (h1 c) (h2 c))
    (fun h hjk c => (h c).mono hjk) (fun z hz c => NearM.toNear ⟨(a2 z hz).1 c, (a2 z hz).2 c⟩)
  have h4 := compose_m_points hmax hI hdeg hdeg' (fun d hd => (hE d hd).1) ⟨a1, rfl⟩ (fun z hz => (a2 z hz).2) h1
  refine Both.approxPoints ⟨r, ?_, ?_, h2, fun z hz c => Near.toM (h3 z hz c) (h4 z hz c)⟩
  · have := given_map (K := Tri A) (K' := Fl A) x_iff x_iffP cfg S dI S.degrees.length E (φ := compl σ) (φ' := fun x => -(x - 1)) (fun _ => rfl)
    rw [h1] at this; exact this
  · have := given_map (K := Tri A) (K' := ℝ) y_iff y_iffP cfg S dI S.degrees.length E (φ := compl σ) (φ' := fun x => -(x - 1)) (fun _ => rfl)
    rw [h1] at this; exact this

omit hη hu hmax hI hdeg hdeg' hE hex hex' in
theorem coordinates {W W' : Type} [Coords (Fl A) W] [Coords ℝ W'] {inner : Spline W} {inner' : Spline W'} (h : HasShape dI inner)
    (h' : HasShape dI inner') {m : ℕ} (hm : Coords.n (Fl A) W = m) (hm' : Coords.n ℝ W' = m) {Q : Tri A → Prop} (b : ℝ → ℝ)
    (hn : List.Forall₂ (fun w w' => ∀ j (hj : j < Coords.n (Fl A) W) (hj' : j < Coords.n ℝ W'),
      Q ⟨Coords.coord w ⟨j, hj⟩, Coords.coord w' ⟨j, hj'⟩, b (Coords.coord w' ⟨j, hj'⟩)⟩) inner.cps inner'.cps) :
    ∃ E : ℕ → Spline (Tri A), (∀ d < m, HasShape dI (E d) ∧ ∀ z ∈ (E d).cps, Q z) ∧
      (∀ d < m, Spline.extractDimension (Fl A) inner d = .ok ((E d).map Tri.x)) ∧
      ∀ d < m, Spline.extractDimension ℝ inner' d = .ok ((E d).map Tri.y) := by
  have : ∀ d, ∃ e : Spline (Tri A), d < m → (HasShape dI e ∧ ∀ z ∈ e.cps, Q z) ∧
      Spline.extractDimension (Fl A) inner d = .ok (e.map Tri.x) ∧ Spline.extractDimension ℝ inner' d = .ok (e.map Tri.y) := by
    intro d
    by_cases hd : d < m
    · have hd1 : d < Coords.n (Fl A) W := hm ▸ hd
      have hd2 : d < Coords.n ℝ W' := hm' ▸ hd
      have e1 := Spline.extractDimension_eq (K := Fl A) h.1 ⟨d, hd1⟩
      have e2 := Spline.extractDimension_eq (K := ℝ) h'.1 ⟨d, hd2⟩
      have hn' : List.Forall₂ (fun (x : Fl A) (y : ℝ) => Q ⟨x, y, b y⟩) (inner.cps.map fun x => Coords.coord x ⟨d, hd1⟩)
          (inner'.cps.map fun x => Coords.coord x ⟨d, hd2⟩) := by
        simp only [List.forall₂_map_left_iff, List.forall₂_map_right_iff]
        exact hn.imp fun x y hxy => hxy d hd1 hd2
      obtain ⟨l, l1, l2, l3⟩ := forall₂_join (x := Tri.x) (y := Tri.y) (Q := Q) (fun x y => (⟨x, y, b y⟩ : Tri A)) (fun _ _ => rfl) (fun _ _ => rfl)
        (fun _ _ h => h) hn'
      obtain ⟨t, rfl, t2, t3, t4⟩ := join_shape (s := ⟨inner.degrees, inner.ncp, inner.offsets, _⟩) (s' := ⟨inner'.degrees, inner'.ncp, inner'.offsets, _⟩)
        ⟨h.1.map _, h.2⟩ ⟨h'.1.map _, h'.2⟩ l1 l2
      exact ⟨t, fun _ => ⟨⟨t2, l3⟩, by rw [t3]; exact e1, by rw [t4]; exact e2⟩⟩
    · exact ⟨Spline.default 0, fun h => absurd h hd⟩
  choose E hE using this
  exact ⟨E, fun d hd => (hE d hd).1, fun d hd => (hE d hd).2.1, fun d hd => (hE d hd).2.2⟩

omit hη hu hmax hI hdeg hdeg' hE hex hex' in
/-- exact coordinates in the unit interval -/
theorem near_unit {x : Fl A} (h0 : 0 ≤ x.val) (h1 : x.val ≤ 1) :
    Near 0 (⟨x, x.val, x.val⟩ : Tri A) ∧ Near (0 + 1) (compl 1 (⟨x, x.val, x.val⟩ : Tri A)) := by
  refine ⟨⟨(abs_of_nonneg h0).le, by simp⟩, ?_, ?_⟩
  · show |-(x.val - 1)| ≤ 1 - x.val
    rw [abs_of_nonneg (by linarith)]; linarith
  · show |-(A.sub x.val 1) - -(x.val - 1)| ≤ ((1 + A.u) ^ 1 - 1) * (1 - x.val)
    have := A.sub_err x.val 1
    rw [show -(A.sub x.val 1) - -(x.val - 1) = -(A.sub x.val 1 - (x.val - 1)) by ring, abs_neg]
    refine this.trans (le_of_eq ?_)
    rw [abs_sub_comm, abs_of_nonneg (by linarith : (0:ℝ) ≤ 1 - x.val)]; ring

omit hη hu hmax hI hdeg hdeg' hE hex hex' in
/-- coordinates of the unit interval with errors -/
theorem near_unit_err {k : ℕ} {x : Fl A} {y B : ℝ} (hB : 1 ≤ B) (h0 : 0 ≤ y) (h1 : y ≤ 1) (h : |x.val - y| ≤ ((1 + A.u) ^ k - 1) * B) :
    Near k (⟨x, y, B⟩ : Tri A) ∧ Near (k + 1) (compl (2 * B) (⟨x, y, B⟩ : Tri A)) := by
  have hu0 := A.u_nonneg
  refine ⟨⟨by rw [abs_of_nonneg h0]; exact h1.trans hB, h⟩, ?_, ?_⟩
  · show |-(y - 1)| ≤ 2 * B - B
    rw [abs_of_nonneg (by linarith)]; linarith
  · show |-(A.sub x.val 1) - -(y - 1)| ≤ ((1 + A.u) ^ (k + 1) - 1) * (2 * B - B)
    have h2 := A.sub_err x.val 1
    have h3 : |x.val - 1| ≤ (1 + A.u) ^ k * B := by
      have : |y - 1| ≤ 1 := abs_le.mpr ⟨by linarith, by linarith⟩
      calc |x.val - 1| = |(x.val - y) + (y - 1)| := by ring_nf
        _ ≤ |x.val - y| + |y - 1| := abs_add_le _ _
        _ ≤ _ := by linarith
    calc |-(A.sub x.val 1) - -(y - 1)| = |-((A.sub x.val 1 - (x.val - 1)) + (x.val - y))| := by ring_nf
      _ = |(A.sub x.val 1 - (x.val - 1)) + (x.val - y)| := abs_neg _
      _ ≤ |A.sub x.val 1 - (x.val - 1)| + |x.val - y| := abs_add_le _ _
      _ ≤ A.u * ((1 + A.u) ^ k * B) + ((1 + A.u) ^ k - 1) * B := add_le_add (h2.trans (mul_le_mul_of_nonneg_left h3 hu0)) h
      _ = _ := by ring

end

/-- the order of the values -/
noncomputable abbrev Fl.linearOrder : LinearOrder (Fl A) :=
  { le := fun a b => a.val ≤ b.val
    lt := fun a b => a.val < b.val
    le_refl := fun a => le_refl a.val
    le_trans := fun a b c => le_trans (a := a.val)
    lt_iff_le_not_ge := fun a b => lt_iff_le_not_ge (a := a.val)
    le_antisymm := fun a b h1 h2 => Fl.ext (le_antisymm h1 h2)
    le_total := fun a b => le_total a.val b.val
    toDecidableLE := fun a b => Classical.propDecidable (a.val ≤ b.val)
    toDecidableLT := fun a b => Classical.propDecidable (a.val < b.val)
    toDecidableEq := fun a b => Classical.propDecidable (a = b) }

theorem Spline.fits_fl {W : Type} [Coords (Fl A) W] (hco : ∀ (f : Fin (Coords.n (Fl A) W) → Fl A) j, Coords.coord (Coords.ofCoords f : W) j = f j)
    {s : Spline W} (h : s.WF) :
    ∃ b : Bool, fitsIntoUnitCube (Fl A) s = .ok b ∧
      (b = true ↔ ∀ x ∈ s.cps, ∀ j : Fin (Coords.n (Fl A) W), 0 ≤ (Coords.coord x j : Fl A).val ∧ (Coords.coord x j : Fl A).val ≤ 1) :=
  @Spline.fitsIntoUnitCube_order (Fl A) W Fl.linearOrder _ hco _ _ s h
end Bezman
