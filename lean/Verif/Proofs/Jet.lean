import Verif.Proofs.Leibniz
import Verif.Proofs.Deriv
import Mathlib.Analysis.Calculus.Deriv.Inv
import Mathlib.Analysis.Calculus.IteratedDeriv.Lemmas

/-! Families of mixed partial derivatives. -/

namespace Bezman
open Spec Finset Filter Topology

variable {𝕜 : Type} [NontriviallyNormedField 𝕜] {V : Type} [NormedAddCommGroup V] [NormedSpace 𝕜 V]

/-- `D k` are the derivatives of order `k` of `D 0` on `U` -/
def Jet (n : ℕ) (U : Set (List 𝕜)) (D : List ℕ → List 𝕜 → V) : Prop :=
  ∀ t ∈ U, t.length = n → ∀ k : List ℕ, k.length = n → ∀ (d : ℕ) (td : 𝕜), t[d]? = some td →
    HasDerivAt (fun x => D k (t.set d x)) (D (bump d k) t) td

/-- `U` is open along coordinate lines -/
def LineOpen (n : ℕ) (U : Set (List 𝕜)) : Prop :=
  ∀ t ∈ U, t.length = n → ∀ (d : ℕ) (td : 𝕜), t[d]? = some td → ∀ᶠ x in 𝓝 td, t.set d x ∈ U

theorem set_self {α : Type} {l : List α} {d : ℕ} {x : α} (h : l[d]? = some x) : l.set d x = l := by
  obtain ⟨hd, rfl⟩ := List.getElem?_eq_some_iff.mp h
  exact List.set_getElem_self hd

theorem Jet.pderiv_eq {n : ℕ} {U : Set (List 𝕜)} {D : List ℕ → List 𝕜 → V} (hD : Jet n U D) (hU : LineOpen n U)
    {t : List 𝕜} (ht : t ∈ U) (htl : t.length = n) {k : List ℕ} (hk : k.length = n) :
    Spec.pderiv k (D (List.replicate n 0)) t = D k t := by
  induction n generalizing U D t k with
  | zero =>
    simp at htl hk; subst htl hk; rfl
  | succ n ih =>
    obtain ⟨t0, ts, rfl⟩ := List.exists_cons_of_length_eq_add_one htl
    obtain ⟨k0, ks, rfl⟩ := List.exists_cons_of_length_eq_add_one hk
    simp at htl hk
    have hslice : ∀ x, x :: ts ∈ U →
        Spec.pderiv ks (fun xs => D (List.replicate (n + 1) 0) (x :: xs)) ts = D (0 :: ks) (x :: ts) := by
      intro x hx
      refine ih (U := {xs | x :: xs ∈ U}) (D := fun k' xs => D (0 :: k') (x :: xs)) ?_ ?_ hx htl hk
      · intro s hs hsl k' hk' d td hd
        exact hD (x :: s) hs (by simp [hsl]) (0 :: k') (by simp [hk']) (d + 1) td (by simpa using hd)
      · intro s hs hsl d td hd
        exact hU (x :: s) hs (by simp [hsl]) (d + 1) td (by simpa using hd)
    have hline : ∀ x, x :: ts ∈ U → ∀ᶠ y in 𝓝 x, y :: ts ∈ U := by
      intro x hx
      simpa using hU (x :: ts) hx (by simp [htl]) 0 x rfl
    have hiter : ∀ (m : ℕ) (x : 𝕜), x :: ts ∈ U →
        iteratedDeriv m (fun y => D (0 :: ks) (y :: ts)) x = D (m :: ks) (x :: ts) := by
      intro m
      induction m with
      | zero => intro x _; simp
      | succ m ihm =>
        intro x hx
        rw [iteratedDeriv_succ]
        have : iteratedDeriv m (fun y => D (0 :: ks) (y :: ts)) =ᶠ[𝓝 x] fun y => D (m :: ks) (y :: ts) := by
          filter_upwards [hline x hx] with y hy using ihm y hy
        rw [this.deriv_eq]
        have := hD (x :: ts) hx (by simp [htl]) (m :: ks) (by simp [hk]) 0 x rfl
        simp only [List.set_cons_zero, bump_zero] at this
        exact this.deriv
    simp only [Spec.pderiv]
    have : (fun x => Spec.pderiv ks (fun xs => D (List.replicate (n + 1) 0) (x :: xs)) ts)
        =ᶠ[𝓝 t0] fun y => D (0 :: ks) (y :: ts) := by
      filter_upwards [hline t0 ht] with y hy using hslice y hy
    rw [this.iteratedDeriv_eq, hiter k0 t0 ht]

theorem hasDerivAt_leib {k : List ℕ} {B : List ℕ → List ℕ → 𝕜 → V} {B' : List ℕ → List ℕ → V} {x : 𝕜}
    (h : ∀ j l, Pair k j l → HasDerivAt (B j l) (B' j l) x) :
    HasDerivAt (fun y => leib 𝕜 k (fun j l => B j l y)) (leib 𝕜 k B') x := by
  induction k generalizing B B' with
  | nil => exact h [] [] .nil
  | cons k ks ih =>
    simp only [leib]
    refine HasDerivAt.fun_sum fun i hi => ?_
    simp only [mem_range] at hi
    exact (ih (B := fun j l => B (i :: j) ((k - i) :: l)) (B' := fun j l => B' (i :: j) ((k - i) :: l))
      (fun j l hp => h _ _ (.cons (by omega) hp))).const_smul _

theorem Pair.zero_left {k j l : List ℕ} (h : Pair k j l) (hj : IsZero j) : l = k := by
  induction h with
  | nil => rfl
  | cons h _ ih =>
    rw [isZero_cons] at hj
    obtain ⟨rfl, hj⟩ := hj
    rw [ih hj]; congr 1; omega

theorem Pair.eq_left {k j l : List ℕ} (h : Pair k j l) (hl : l = k) : IsZero j := by
  have := h.sum
  rw [hl] at this
  rw [isZero_sum]; omega

section
variable {n : ℕ} {A : List ℕ → List 𝕜 → V} {W : List ℕ → List 𝕜 → 𝕜}

/-- where the denominator does not vanish -/
def nonzero (n : ℕ) (W : List ℕ → List 𝕜 → 𝕜) : Set (List 𝕜) := {t | W (List.replicate n 0) t ≠ 0}

theorem nonzero_lineOpen (hW : Jet n Set.univ W) : LineOpen n (nonzero n W) := by
  intro t ht htl d td hd
  have h := (hW t trivial htl (List.replicate n 0) (by simp) d td hd).continuousAt
  refine h.eventually_ne ?_
  rw [set_self hd]; exact ht

/-- the quotient -/
def quotJet (n : ℕ) (A : List ℕ → List 𝕜 → V) (W : List ℕ → List 𝕜 → 𝕜) (k : List ℕ) (t : List 𝕜) : V :=
  quot (fun j => A j t) (fun j => W j t) (W (List.replicate n 0) t) k

theorem quotJet_leib {t : List 𝕜} (ht : t ∈ nonzero n W) {k : List ℕ} (hk : k.length = n) :
    leib 𝕜 k (fun j l => W j t • quotJet n A W l t) = A k t :=
  quot_leib (fun j => A j t) (fun j => W j t) _ ht k (by rw [hk])

theorem quotJet_jet (hA : Jet n Set.univ A) (hW : Jet n Set.univ W) : Jet n (nonzero n W) (quotJet n A W) := by
  have main : ∀ (m : ℕ) (k : List ℕ), k.sum = m → k.length = n → ∀ t ∈ nonzero n W, t.length = n →
      ∀ (d : ℕ) (td : 𝕜), t[d]? = some td →
        HasDerivAt (fun x => quotJet n A W k (t.set d x)) (quotJet n A W (bump d k) t) td := by
    intro m
    induction m using Nat.strong_induction_on with
    | _ m ih =>
    intro k hkm hk t ht htl d td hd
    have hdl : d < n := by rw [← htl]; exact (List.getElem?_eq_some_iff.mp hd).1
    have hts : t.set d td = t := set_self hd
    have hWd : ∀ j : List ℕ, j.length = n → HasDerivAt (fun x => W j (t.set d x)) (W (bump d j) t) td :=
      fun j hj => hW t trivial htl j hj d td hd
    -- some derivative exists
    have hex : ∃ r', HasDerivAt (fun x => quotJet n A W k (t.set d x)) r' td := by
      have h1 := (hWd (List.replicate n 0) (by simp)).inv (by rw [hts]; exact ht)
      have h2 := hasDerivAt_leib (k := k) (x := td)
        (B := fun j l x => if IsZero j then 0 else W j (t.set d x) • quotJet n A W l (t.set d x))
        (B' := fun j l => if IsZero j then 0 else
          W j (t.set d td) • quotJet n A W (bump d l) t + W (bump d j) t • quotJet n A W l (t.set d td)) (by
          intro j l hp
          by_cases hj : IsZero j
          · simp only [hj, if_true]; exact hasDerivAt_const _ _
          · simp only [hj, if_false]
            have hs := hp.sum
            have hj' := hj
            rw [isZero_sum] at hj'
            exact (hWd j (by rw [hp.len.1, hk])).fun_smul
              (ih l.sum (by omega) l rfl (by rw [hp.len.2, hk]) t ht htl d td hd))
      have h3 := h1.fun_smul ((hA t trivial htl k hk d td hd).fun_sub h2)
      refine ⟨_, h3.congr_of_eventuallyEq (Eventually.of_forall fun x => ?_)⟩
      exact quot_rec _ _ _ _
    obtain ⟨r', hr'⟩ := hex
    -- differentiate the Leibniz identity
    have h4 := hasDerivAt_leib (k := k) (x := td)
      (B := fun j l x => W j (t.set d x) • quotJet n A W l (t.set d x))
      (B' := fun j l => W j (t.set d td) • (if l = k then r' else quotJet n A W (bump d l) t)
        + W (bump d j) t • quotJet n A W l (t.set d td)) (by
        intro j l hp
        refine (hWd j (by rw [hp.len.1, hk])).fun_smul ?_
        by_cases hl : l = k
        · rw [if_pos hl, hl]; exact hr'
        · rw [if_neg hl]
          have hs := hp.sum
          have hj : ¬ IsZero j := fun h => hl (hp.zero_left h)
          rw [isZero_sum] at hj
          exact ih l.sum (by omega) l rfl (by rw [hp.len.2, hk]) t ht htl d td hd)
    have h5 : (fun x => leib 𝕜 k (fun j l => W j (t.set d x) • quotJet n A W l (t.set d x)))
        =ᶠ[𝓝 td] fun x => A k (t.set d x) := by
      filter_upwards [nonzero_lineOpen hW t ht htl d td hd] with x hx
      exact quotJet_leib hx hk
    have h6 := (hA t trivial htl k hk d td hd).unique (h4.congr_of_eventuallyEq h5.symm)
    have h7 := quotJet_leib (A := A) ht (k := bump d k) (by rw [bump_length, hk])
    rw [leib_bump (by omega)] at h7
    rw [h6] at h7
    simp only [hts] at h7
    have h8 : leib 𝕜 k (fun j l => W j t • ((if l = k then r' else quotJet n A W (bump d l) t)
        - quotJet n A W (bump d l) t)) = 0 := by
      have h9 : leib 𝕜 k (fun j l => (W j t • (if l = k then r' else quotJet n A W (bump d l) t)
          + W (bump d j) t • quotJet n A W l t)
          - (W (bump d j) t • quotJet n A W l t + W j t • quotJet n A W (bump d l) t)) = 0 := by
        rw [leib_sub, h7, sub_self]
      rw [← h9]
      apply leib_congr
      intro j l _
      rw [smul_sub]; abel
    rw [leib_split, leib_congr (C := fun _ _ => 0) (by
      intro j l hp
      by_cases hj : IsZero j
      · rw [if_pos hj]
      · rw [if_neg hj, if_neg (fun h => hj (hp.eq_left h)), sub_self, smul_zero]), leib_zero, add_zero, if_pos rfl, hk,
      smul_eq_zero] at h8
    rcases h8 with h8 | h8
    · exact absurd h8 ht
    · rw [← sub_eq_zero.mp h8]; exact hr'
  intro t ht htl k hk d td hd
  exact main _ k rfl hk t ht htl d td hd

end

/-- the derivatives of a Bezier function -/
theorem tens_jet {ps : List ℕ} (F : ℕ → V) :
    Jet ps.length Set.univ (fun k t => tens ps (Spline.dFns ps k t) F : List ℕ → List 𝕜 → V) := by
  intro t _ htl k hk d td hd
  obtain ⟨hdl, _⟩ := List.getElem?_eq_some_iff.mp hd
  have hkd : k[d]? = some k[d] := List.getElem?_eq_getElem (by omega)
  have := hasDerivAt_tens (𝕜 := 𝕜) hk htl F hkd hd
  have e : bump d k = k.set d (k[d] + 1) := by
    unfold bump
    rw [List.modify_eq_set_getElem?, hkd]; rfl
  rw [e]; exact this

end Bezman
