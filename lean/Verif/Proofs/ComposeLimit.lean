import Verif.Proofs.AnyArith
import Verif.Proofs.AnyArithRational
import Verif.Proofs.Reject

/-! # Compositions and powers whose degrees exceed the table of binomial coefficients

Every step either fails an assertion or returns, and a product that returns had degrees within the table. So if the composition
returned, the degrees of the result would be within the table. -/

namespace Bezman
open Spec

/-- The call returns something with property `Q`, or an assertion fails. -/
def OkOr {α : Type} (x : M α) (Q : α → Prop) : Prop := (∃ r, x = .ok r ∧ Q r) ∨ x = .error .assertFail

theorem OkOr.bind {α β : Type} {x : M α} {f : α → M β} {P : α → Prop} {Q : β → Prop} (h : OkOr x P) (hf : ∀ a, P a → OkOr (f a) Q) :
    OkOr (x >>= f) Q := by
  rcases h with ⟨r, rfl, hr⟩ | rfl
  · exact hf r hr
  · exact .inr rfl

theorem OkOr.pure {α : Type} {a : α} {Q : α → Prop} (h : Q a) : OkOr (Pure.pure a : M α) Q := .inl ⟨a, rfl, h⟩

theorem OkOr.mono {α : Type} {x : M α} {P Q : α → Prop} (h : OkOr x P) (hf : ∀ a, P a → Q a) : OkOr x Q := by
  rcases h with ⟨r, rfl, hr⟩ | rfl
  · exact .inl ⟨r, rfl, hf r hr⟩
  · exact .inr rfl

theorem OkOr.loop {σ : Type} {n : ℕ} {f : ℕ → σ → M σ} {s : σ} (P : ℕ → σ → Prop) (h0 : P 0 s)
    (hstep : ∀ k, k < n → ∀ s, P k s → OkOr (f k s) (P (k + 1))) : OkOr (loop n f s) (P n) := by
  induction n with
  | zero => exact .inl ⟨s, rfl, h0⟩
  | succ n ih =>
    rw [loop_succ]
    exact (ih fun k hk => hstep k (by omega)).bind (hstep n (by omega))

theorem OkOr.of_returns {V : Type} {ds : List ℕ} {x : M (Spline V)} (h : Returns ds x) : OkOr x (HasShape ds) := .inl h

theorem OkOr.rd {α : Type} {l : List α} {i : ℕ} {x : α} (h : l[i]? = some x) : OkOr (rd l i) (· = x) := .inl ⟨x, rd_ok h, rfl⟩

theorem OkOr.wr {α : Type} {l : List α} {i : ℕ} (x : α) (h : i < l.length) : OkOr (wr l i x) (· = l.set i x) := .inl ⟨_, wr_ok x h, rfl⟩

namespace Spline
variable {K V W : Type} [Zero K] [One K] [Add K] [Sub K] [Mul K] [Neg K] [Div K] [NatCast K]

/-- degrees of a product of `k` factors of degrees `db` -/
def mults (db : List ℕ) (k : ℕ) : List ℕ := db.map (k * ·)

/-- these degrees are within the table -/
def WithinTable (cfg : Cfg) (db : List ℕ) (k : ℕ) : Prop := ∀ q ∈ db, k * q < cfg.maxBinom

theorem mults_sum (db : List ℕ) (i j : ℕ) : sumDegrees (mults db i) (mults db j) = mults db (i + j) := by
  unfold sumDegrees mults
  induction db with
  | nil => rfl
  | cons q db ih => simp [ih, add_mul]

theorem mults_one (db : List ℕ) : mults db 1 = db := by simp [mults]
theorem mults_zero (db : List ℕ) : mults db 0 = List.replicate db.length 0 := by simp [mults, List.map_const']

theorem mulScalar_limit {cfg : Cfg} (hmax : cfg.maxBinom ≤ 68) {db : List ℕ} {i j : ℕ} {a b : Spline K} (ha : HasShape (mults db i) a)
    (hb : HasShape (mults db j) b) : OkOr (mulScalar cfg a b) (fun r => HasShape (mults db (i + j)) r ∧ WithinTable cfg db (i + j)) := by
  by_cases h : WithinTable cfg db (i + j)
  · obtain ⟨r, e, hr⟩ := mulOp_returns (K := K) cfg hmax (fun x y : K => x * y) ha hb (by simp [mults]) (by
      rw [mults_sum]; intro p hp
      obtain ⟨q, hq, rfl⟩ := List.mem_map.mp hp
      exact h q hq)
    rw [mults_sum] at hr
    exact .inl ⟨r, e, hr, h⟩
  · unfold WithinTable at h
    push Not at h
    obtain ⟨q, hq, hlt⟩ := h
    obtain ⟨d, hd, rfl⟩ := List.mem_iff_getElem.mp hq
    refine .inr (mulOp_assert (K := K) cfg (fun x y : K => x * y) ha.1.dim_pos ?_ ⟨d, i * db[d], j * db[d], ?_, ?_, ?_⟩)
    · show b.degrees.length = a.degrees.length
      rw [ha.2, hb.2]; simp [mults]
    · rw [ha.2]; simp [mults, hd]
    · rw [hb.2]; simp [mults, hd]
    · rw [← add_mul]; exact hlt

theorem oneSpline_shape {db : List ℕ} (h : 0 < db.length) : OkOr (oneSpline (K := K) db.length) (HasShape (mults db 0)) := by
  have h := ofPoints_ok (ps := List.replicate db.length 0) (pts := [(1 : K)]) (by simpa using h) (by simp [size_replicate_zero])
  exact .inl ⟨_, h.1, h.2, by simp [mults_zero]⟩

theorem composeBernstein_limit {cfg : Cfg} (hmax : cfg.maxBinom ≤ 68) (h2 : 2 ≤ cfg.maxBinom) {db : List ℕ} (hdb : 0 < db.length) (p : ℕ)
    {e inv : Spline K} (he : HasShape db e) (hi : HasShape db inv) :
    OkOr (composeBernstein cfg p db.length e inv) (fun bs => bs.length = p + 1 ∧
      (∀ i : ℕ, i ≤ p → ∃ x, bs[i]? = some x ∧ HasShape (mults db p) x) ∧ p < cfg.maxBinom ∧ WithinTable cfg db p) := by
  have he' : HasShape (mults db 1) e := by rwa [mults_one]
  have hi' : HasShape (mults db 1) inv := by rwa [mults_one]
  have hw0 : WithinTable cfg db 0 := fun q _ => by omega
  unfold composeBernstein
  refine (oneSpline_shape hdb).bind fun one hone => ?_
  refine (OkOr.wr one (by simp)).bind ?_
  rintro _ rfl
  unfold loopFrom
  refine OkOr.bind (P := fun r : List (Spline K) × Spline K => r.1.length = p + 1 ∧
    (∀ i : ℕ, i ≤ p → ∃ x, r.1[i]? = some x ∧ HasShape (mults db i) x) ∧ WithinTable cfg db p) ?_ ?_
  · refine (OkOr.loop (fun k (r : List (Spline K) × Spline K) => r.1.length = p + 1 ∧
      (∀ i : ℕ, i ≤ k → ∃ x, r.1[i]? = some x ∧ HasShape (mults db i) x) ∧ HasShape (mults db k) r.2 ∧ WithinTable cfg db k)
      ⟨by simp, ?_, hone, hw0⟩ ?_).mono ?_
    · intro i hi
      obtain rfl : i = 0 := by omega
      exact ⟨one, by simp, hone⟩
    · rintro k hk r ⟨r1, r2, r3, r4⟩
      refine (mulScalar_limit hmax r3 he').bind ?_
      rintro m ⟨hm, hw⟩
      refine (OkOr.wr m (by omega)).bind ?_
      rintro _ rfl
      refine OkOr.pure ⟨by simpa using r1, ?_, hm, hw⟩
      intro i hi
      by_cases hik : i = k + 1
      · subst hik
        exact ⟨m, by rw [add_comm 1 k, List.getElem?_set_self (by omega)], hm⟩
      · obtain ⟨x, hx, hs⟩ := r2 i (by omega)
        exact ⟨x, by rw [List.getElem?_set_ne (by omega)]; exact hx, hs⟩
    · rintro r ⟨r1, r2, -, r4⟩
      rw [Nat.add_sub_cancel] at r2 r4
      exact ⟨r1, r2, r4⟩
  · rintro ⟨bs, m0⟩ ⟨r1, r2, r3⟩
    refine OkOr.bind (P := fun r : List (Spline K) × Spline K => r.1.length = p + 1 ∧
      (∀ i : ℕ, i ≤ p → ∃ x, r.1[i]? = some x ∧ HasShape (mults db p) x)) ?_ ?_
    · refine (OkOr.loop (fun k (r : List (Spline K) × Spline K) => r.1.length = p + 1 ∧
        (∀ i : ℕ, i ≤ p → ∃ x, r.1[i]? = some x ∧ HasShape (mults db (if p ≤ i + k then p else i)) x) ∧ HasShape (mults db k) r.2)
        (s := (bs, one)) ⟨r1, ?_, hone⟩ ?_).mono ?_
      · intro i hi
        obtain ⟨x, hx, hs⟩ := r2 i hi
        refine ⟨x, hx, ?_⟩
        split
        · have : i = p := by omega
          rwa [this] at hs
        · exact hs
      · rintro k hk r ⟨r1, r2, r3⟩
        refine (mulScalar_limit hmax r3 hi').bind ?_
        rintro m ⟨hm, -⟩
        obtain ⟨b, hb, hbs⟩ := r2 (p - (1 + k)) (by omega)
        rw [if_neg (by omega)] at hbs
        refine (OkOr.rd hb).bind ?_
        rintro _ rfl
        refine (mulScalar_limit hmax hbs hm).bind ?_
        rintro b' ⟨hb', -⟩
        rw [show p - (1 + k) + (k + 1) = p by omega] at hb'
        refine (OkOr.wr b' (by omega)).bind ?_
        rintro _ rfl
        refine OkOr.pure ⟨by simpa using r1, ?_, hm⟩
        intro i hi
        by_cases hik : i = p - (1 + k)
        · subst hik
          exact ⟨b', by rw [List.getElem?_set_self (by omega)], by rwa [if_pos (by omega)]⟩
        · obtain ⟨x, hx, hs⟩ := r2 i hi
          refine ⟨x, by rw [List.getElem?_set_ne (by omega)]; exact hx, ?_⟩
          have : (p ≤ i + (k + 1)) ↔ (p ≤ i + k) := by omega
          simpa only [this] using hs
      · rintro r ⟨r1, r2, -⟩
        refine ⟨r1, fun i hi => ?_⟩
        obtain ⟨x, hx, hs⟩ := r2 i hi
        rw [if_pos (by omega)] at hs
        exact ⟨x, hx, hs⟩
    · rintro ⟨bs, m1⟩ ⟨q1, q2⟩
      refine (OkOr.loop (fun k (bs : List (Spline K)) => bs.length = p + 1 ∧
        (∀ i : ℕ, i ≤ p → ∃ x, bs[i]? = some x ∧ HasShape (mults db p) x) ∧ (0 < k → p < cfg.maxBinom)) ⟨q1, q2, by simp⟩ ?_).mono ?_
      · rintro k hk bs ⟨q1, q2, -⟩
        obtain ⟨b, hb, hbs⟩ := q2 (p - (1 + k)) (by omega)
        refine (OkOr.rd hb).bind ?_
        rintro _ rfl
        refine OkOr.bind (P := fun _ => p < cfg.maxBinom) ?_ ?_
        · by_cases h : p < cfg.maxBinom
          · exact .inl ⟨_, choose_ok hmax h (by omega), h⟩
          · exact .inr (choose_assert (by omega))
        · intro c hc
          refine (OkOr.of_returns (smulOp_returns hbs ((c : ℕ) : K))).bind fun b' hb' => ?_
          refine (OkOr.wr b' (by omega)).mono ?_
          rintro _ rfl
          refine ⟨by simpa using q1, fun i hi => ?_, fun _ => hc⟩
          by_cases hik : i = p - (1 + k)
          · subst hik
            exact ⟨b', by rw [List.getElem?_set_self (by omega)], hb'⟩
          · obtain ⟨x, hx, hs⟩ := q2 i hi
            exact ⟨x, by rw [List.getElem?_set_ne (by omega)]; exact hx, hs⟩
      · rintro bs ⟨q1, q2, q3⟩
        refine ⟨q1, q2, ?_, r3⟩
        by_cases h : p < 2
        · omega
        · exact q3 (by omega)

theorem composeBases_limit {cfg : Cfg} (hmax : cfg.maxBinom ≤ 68) (h2 : 2 ≤ cfg.maxBinom) {da db : List ℕ} (hdb : 0 < db.length)
    {extract : ℕ → M (Spline K)} {inverse : Spline K → M (Spline K)} (hext : ∀ d, d < da.length → Returns db (extract d))
    (hinv : ∀ e, HasShape db e → Returns db (inverse e)) :
    OkOr (composeBases cfg da db.length extract inverse) (fun bases => bases.length = da.length ∧
      ∀ d p : ℕ, da[d]? = some p → (p < cfg.maxBinom ∧ WithinTable cfg db p) ∧ ∃ bs, bases[d]? = some bs ∧ ∀ i : ℕ, i ≤ p → ∃ x, bs[i]? = some x ∧ HasShape (mults db p) x) := by
  unfold composeBases
  refine (OkOr.loop (fun k (bases : List (List (Spline K))) => bases.length = da.length ∧ ∀ d p : ℕ, d < k → da[d]? = some p →
    (p < cfg.maxBinom ∧ WithinTable cfg db p) ∧ ∃ bs, bases[d]? = some bs ∧ ∀ i : ℕ, i ≤ p → ∃ x, bs[i]? = some x ∧ HasShape (mults db p) x) ⟨by simp, by simp⟩ ?_).mono ?_
  · rintro d hd bases ⟨b1, b2⟩
    refine (OkOr.rd (List.getElem?_eq_getElem hd)).bind ?_
    rintro _ rfl
    refine (OkOr.of_returns (hext d hd)).bind fun e he => ?_
    refine (OkOr.of_returns (hinv e he)).bind fun inv hi => ?_
    refine (composeBernstein_limit hmax h2 hdb _ he hi).bind ?_
    rintro bs ⟨-, c2, c3⟩
    refine (OkOr.wr bs (by omega)).mono ?_
    rintro _ rfl
    refine ⟨by simpa using b1, fun d' p hd' hp => ?_⟩
    by_cases h : d' = d
    · subst h
      rw [List.getElem?_eq_getElem hd] at hp
      obtain rfl := Option.some.inj hp
      exact ⟨c3, bs, by rw [List.getElem?_set_self (by omega)], c2⟩
    · obtain ⟨h1, bs', h3, h4⟩ := b2 d' p (by omega) hp
      exact ⟨h1, bs', by rw [List.getElem?_set_ne (by omega)]; exact h3, h4⟩
  · rintro bases ⟨b1, b2⟩
    exact ⟨b1, fun d p hp => b2 d p (List.getElem?_eq_some_iff.mp hp).1 hp⟩

theorem composeTensor_limit {cfg : Cfg} (hmax : cfg.maxBinom ≤ 68) {da db : List ℕ} (hda : 0 < da.length) {bases : List (List (Spline K))}
    (hl : bases.length = da.length) (hb : ∀ d p : ℕ, da[d]? = some p → ∃ bs, bases[d]? = some bs ∧ ∀ i : ℕ, i ≤ p → ∃ x, bs[i]? = some x ∧
      HasShape (mults db p) x) (h1 : 2 ≤ da.length ∨ WithinTable cfg db da.sum) {idx : List ℕ} (hidx : ValidIdx da idx) :
    OkOr (composeTensor cfg bases idx) (fun r => HasShape (mults db da.sum) r ∧ WithinTable cfg db da.sum) := by
  have hli : idx.length = da.length := List.Forall₂.length_eq hidx
  have hi : ∀ d p : ℕ, da[d]? = some p → ∃ i, idx[d]? = some i ∧ i ≤ p := by
    intro d p hp
    obtain ⟨hd, rfl⟩ := List.getElem?_eq_some_iff.mp hp
    exact ⟨idx[d], by simp [hli, hd], (List.forall₂_iff_get.mp hidx).2 d (by omega) hd⟩
  have entry : ∀ d p : ℕ, da[d]? = some p → ∃ bs i x, bases[d]? = some bs ∧ idx[d]? = some i ∧ bs[i]? = some x ∧ HasShape (mults db p) x := by
    intro d p hp
    obtain ⟨bs, e1, e2⟩ := hb d p hp
    obtain ⟨i, e3, e4⟩ := hi d p hp
    obtain ⟨x, e5, e6⟩ := e2 i e4
    exact ⟨bs, i, x, e1, e3, e5, e6⟩
  unfold composeTensor
  obtain ⟨bs, i, x, e1, e2, e3, e4⟩ := entry 0 _ (List.getElem?_eq_getElem hda)
  refine (OkOr.rd e1).bind ?_
  rintro _ rfl
  refine (OkOr.rd e2).bind ?_
  rintro _ rfl
  refine (OkOr.rd e3).bind ?_
  rintro _ rfl
  unfold loopFrom
  refine (OkOr.loop (fun k (r : Spline K) => HasShape (mults db (da.take (k + 1)).sum) r ∧ (0 < k → WithinTable cfg db (da.take (k + 1)).sum))
    ⟨?_, by simp⟩ ?_).mono ?_
  · have : (da.take (0 + 1)).sum = da[0] := by
      cases da with
      | nil => simp at hda
      | cons p da => simp
    rwa [this]
  · rintro k hk r ⟨hr, -⟩
    have hd : 1 + k < da.length := by omega
    obtain ⟨bs, i, x, e1, e2, e3, e4⟩ := entry (1 + k) _ (List.getElem?_eq_getElem hd)
    refine (OkOr.rd e1).bind ?_
    rintro _ rfl
    refine (OkOr.rd e2).bind ?_
    rintro _ rfl
    refine (OkOr.rd e3).bind ?_
    rintro _ rfl
    refine (mulScalar_limit hmax hr e4).mono ?_
    have : (da.take (k + 1)).sum + da[1 + k] = (da.take (k + 1 + 1)).sum := by
      rw [List.sum_take_succ da (k + 1) (by omega)]
      simp only [add_comm 1 k]
    rintro r ⟨h1, h2⟩
    rw [this] at h1 h2
    exact ⟨h1, fun _ => h2⟩
  · rintro r ⟨hr, hw⟩
    have e : da.take (bases.length - 1 + 1) = da := by rw [hl]; exact List.take_of_length_le (by omega)
    rw [e] at hr hw
    refine ⟨hr, ?_⟩
    rcases h1 with h1 | h1
    · exact hw (by omega)
    · exact h1

variable [Zero V] [Add V] [SMul K V]

theorem composeNumerator_limit {cfg : Cfg} (hmax : cfg.maxBinom ≤ 68) (h2 : 2 ≤ cfg.maxBinom) {a : Spline V} {da db : List ℕ}
    (ha : HasShape da a) (hdb : 0 < db.length) {extract : ℕ → M (Spline K)} {inverse : Spline K → M (Spline K)}
    (hext : ∀ d, d < da.length → Returns db (extract d)) (hinv : ∀ e, HasShape db e → Returns db (inverse e))
    (h : (∃ p ∈ da, cfg.maxBinom ≤ p) ∨ ∃ q ∈ db, cfg.maxBinom ≤ da.sum * q) :
    composeNumerator cfg a db extract inverse = .error .assertFail ∧
    composeNumeratorSensitivity cfg a db extract inverse = .error .assertFail := by
  obtain ⟨hwf, rfl⟩ := ha
  have hda : 0 < a.degrees.length := hwf.dim_pos
  obtain ⟨ret, hret, -⟩ := ofDegrees_ok (V := V) (ps := composeDegrees a.degrees db) (by simpa [composeDegrees] using hdb)
  unfold composeNumerator composeNumeratorSensitivity
  rcases composeBases_limit hmax h2 hdb hext hinv with ⟨bases, e, b1, b2⟩ | e
  · have hall : ∀ p ∈ a.degrees, p < cfg.maxBinom := by
      intro p hp
      obtain ⟨d, hd, rfl⟩ := List.mem_iff_getElem.mp hp
      exact (b2 d _ (List.getElem?_eq_getElem hd)).1.1
    have hq : ¬ WithinTable cfg db a.degrees.sum := by
      rcases h with ⟨p, hp, hle⟩ | ⟨q, hq, hle⟩
      · have := hall p hp; omega
      · intro hw; have := hw q hq; omega
    have hone : 2 ≤ a.degrees.length ∨ WithinTable cfg db a.degrees.sum := by
      by_cases hl : 2 ≤ a.degrees.length
      · exact .inl hl
      · obtain ⟨p, hp⟩ := List.length_eq_one_iff.mp (show a.degrees.length = 1 by omega)
        have := (b2 0 p (by rw [hp]; rfl)).1.2
        rw [hp]
        exact .inr (by simpa using this)
    have key : ∀ n, composeTensor cfg bases (unflat a.degrees n) = .error .assertFail := by
      intro n
      rcases composeTensor_limit hmax hda b1 (fun d p hp => (b2 d p hp).2) hone (unflat_valid _ n) with ⟨r, -, -, hr⟩ | h
      · exact absurd hr hq
      · exact h
    have hn : 0 < a.ncp := by rw [hwf.ncp_eq]; exact size_pos _
    simp only [hret, bind_ok, e]
    constructor <;>
    · refine loop_first_error ?_ hn
      rw [localToGlobal_ok hwf, bind_ok, key]
      rfl
  · simp only [hret, bind_ok, e]
    exact ⟨rfl, rfl⟩

section
variable [Coords K W]

omit [One K] [Add K] [Sub K] [Mul K] [Neg K] [Div K] [NatCast K] [Zero V] [Add V] [SMul K V] in
theorem extract_returns {a : Spline W} {ds : List ℕ} (ha : HasShape ds a) {j : ℕ} (hj : j < Coords.n K W) :
    Returns ds (extractDimension K a j) := by
  have := extractDimension_eq (K := K) ha.1 ⟨j, hj⟩
  exact ⟨_, this, ⟨ha.1.1, ha.1.2, ha.1.3, by simpa using ha.1.4⟩, ha.2⟩

theorem compose_limit {cfg : Cfg} (hmax : cfg.maxBinom ≤ 68) (h2 : 2 ≤ cfg.maxBinom) [LT K] [DecidableLT K] {a : Spline V} {b : Spline W}
    {da db : List ℕ} (ha : HasShape da a) (hb : HasShape db b) (hdim : da.length = Coords.n K W) (hfit : fitsIntoUnitCube K b = .ok true)
    (h : (∃ p ∈ da, cfg.maxBinom ≤ p) ∨ ∃ q ∈ db, cfg.maxBinom ≤ da.sum * q) :
    compose K cfg a b = .error .assertFail ∧ composeSensitivity K cfg a b = .error .assertFail := by
  have key := composeNumerator_limit hmax h2 ha (by rw [← hb.2]; exact hb.1.dim_pos) (extract := fun d => extractDimension K b d)
    (inverse := fun e => pointSub (1 : K) e) (fun d hd => extract_returns hb (by omega)) (fun e he => pointSub_returns he 1) h
  unfold compose composeSensitivity
  rw [hfit, hb.2]
  exact key

theorem numeratorRational_limit {cfg : Cfg} (hmax : cfg.maxBinom ≤ 68) (h2 : 2 ≤ cfg.maxBinom) {a : Spline V} {b : RSpline K W}
    {da db : List ℕ} (ha : HasShape da a) (hb : HasRShape db b) (hdim : da.length = Coords.n K W)
    (hsub : SubFits cfg db)
    (h : (∃ p ∈ da, cfg.maxBinom ≤ p) ∨ ∃ q ∈ db, cfg.maxBinom ≤ da.sum * q) :
    a.composeNumeratorRational cfg b = .error .assertFail ∧ a.composeNumeratorSensitivityRational cfg b = .error .assertFail := by
  have hm : maxDegrees db db = db := by
    unfold maxDegrees
    clear * -
    induction db with
    | nil => rfl
    | cons q db ih => simp [ih]
  have key := composeNumerator_limit hmax h2 ha (by rw [← hb.1.2]; exact hb.1.1.dim_pos) (extract := fun d => b.extractDimension d)
    (inverse := fun e => subOp K cfg b.wt e) (fun d hd => extract_returns hb.1 (by omega)) (fun e he => by
      have := subOp_returns (K := K) cfg hb.2 he ⟨rfl, by simpa using hsub.rounds, hsub.rounds2, by rw [hm]; exact hsub.small⟩
        (by intro d p q h1 h2; rw [h1] at h2; exact (Option.some.inj h2).ge)
      rwa [hm] at this) h
  unfold composeNumeratorRational composeNumeratorSensitivityRational
  rw [hb.1.2]
  exact key

end

theorem raisePowerAux_limit {cfg : Cfg} (hmax : cfg.maxBinom ≤ 68) {s : Spline K} {ds : List ℕ} (hs : HasShape ds s) :
    ∀ depth k, k < depth → OkOr (raisePowerAux cfg s depth k) (fun r => HasShape (mults ds k) r ∧ (2 ≤ k → WithinTable cfg ds k)) := by
  intro depth
  induction depth with
  | zero => intro k hk; omega
  | succ depth ih =>
    intro k hk
    rw [raisePowerAux]
    split
    · subst_vars
      have : s.dim = ds.length := by unfold dim; rw [hs.2]
      rw [this]
      exact (oneSpline_shape (by rw [← this]; exact hs.1.dim_pos)).mono fun r hr => ⟨hr, by omega⟩
    split
    · subst_vars
      exact OkOr.pure ⟨by rwa [mults_one], by omega⟩
    refine (ih (k / 2) (by omega)).bind ?_
    rintro r ⟨hr, -⟩
    split
    · refine (mulScalar_limit hmax hr hr).mono ?_
      rw [show k / 2 + k / 2 = k by omega]
      exact fun r hr => ⟨hr.1, fun _ => hr.2⟩
    · refine (mulScalar_limit hmax hr hr).bind ?_
      rintro rr ⟨hrr, -⟩
      refine (mulScalar_limit hmax hrr (j := 1) (by rwa [mults_one])).mono ?_
      rw [show k / 2 + k / 2 + 1 = k by omega]
      exact fun r hr => ⟨hr.1, fun _ => hr.2⟩

theorem raisePower_limit {cfg : Cfg} (hmax : cfg.maxBinom ≤ 68) {s : Spline K} {ds : List ℕ} (hs : HasShape ds s) {k : ℕ} (hk : 2 ≤ k)
    (h : ∃ q ∈ ds, cfg.maxBinom ≤ k * q) : raisePower cfg s k = .error .assertFail := by
  rcases raisePowerAux_limit hmax hs (k + 1) k (by omega) with ⟨r, -, -, hr⟩ | e
  · obtain ⟨q, hq, hle⟩ := h
    have := hr hk q hq
    omega
  · exact e

end Spline
end Bezman
