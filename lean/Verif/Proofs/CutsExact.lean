import Verif.Proofs.TiesToEven
import Verif.Props.RationalBox
import Verif.Props.FloatBounds

/-! # Chains of cuts: what the parts are, and where the cuts are -/

namespace Bezman
open Spec

section
variable {K : Type}

theorem isSorted_of_pairwise [LT K] [DecidableLT K] {l : List K} (h : l.Pairwise (fun a b => ¬ b < a)) : Spline.isSorted l = true := by
  induction l with
  | nil => rfl
  | cons a l ih =>
    cases l with
    | nil => rfl
    | cons b l =>
      rw [Spline.isSorted, ih (List.pairwise_cons.mp h).2, Bool.and_true, Bool.not_eq_true', decide_eq_false_iff_not]
      exact (List.pairwise_cons.mp h).1 b (by simp)

theorem mem_relativesFrom {rel : K → K → K} {zp : K} {zs : List K} {r : K} :
    r ∈ relativesFrom rel zp zs ↔ ∃ (i : ℕ) (a b : K), (zp :: zs)[i]? = some a ∧ (zp :: zs)[i + 1]? = some b ∧ r = rel a b := by
  induction zs generalizing zp with
  | nil => simp [relativesFrom]
  | cons z zs ih =>
    rw [relativesFrom, List.mem_cons, ih]
    constructor
    · rintro (rfl | ⟨i, a, b, h1, h2, h3⟩)
      · exact ⟨0, zp, z, rfl, rfl, rfl⟩
      · exact ⟨i + 1, a, b, by simpa using h1, by simpa using h2, h3⟩
    · rintro ⟨i, a, b, h1, h2, h3⟩
      cases i with
      | zero => simp at h1 h2; subst h1; subst h2; exact .inl h3
      | succ i => exact .inr ⟨i, a, b, by simpa using h1, by simpa using h2, h3⟩

theorem mem_relatives {rel : K → K → K} {zs : List K} {r : K} :
    r ∈ relatives rel zs ↔ zs[0]? = some r ∨ ∃ (i : ℕ) (a b : K), zs[i]? = some a ∧ zs[i + 1]? = some b ∧ r = rel a b := by
  cases zs with
  | nil => simp [relatives]
  | cons z zs => rw [relatives, List.mem_cons, mem_relativesFrom]; simp [eq_comm]

theorem getElem?_relativesFrom {rel : K → K → K} {zp : K} {zs : List K} {i : ℕ} {a b : K} (ha : (zp :: zs)[i]? = some a)
    (hb : (zp :: zs)[i + 1]? = some b) : (relativesFrom rel zp zs)[i]? = some (rel a b) := by
  induction zs generalizing zp i with
  | nil => simp at hb
  | cons z zs ih =>
    cases i with
    | zero => simp at ha hb; subst ha; subst hb; rfl
    | succ i => simp only [relativesFrom, List.getElem?_cons_succ]; exact ih (by simpa using ha) (by simpa using hb)

theorem RSpline.splitAt_throws {V : Type} [Zero K] [One K] [Add K] [Mul K] [Sub K] [LT K] [DecidableLT K] [Add V] [SMul K V] {r : RSpline K V}
    {z : K} {d : ℕ} (h : ¬ (0 < z ∧ z < 1)) : r.splitAt z d = .error .throws := by
  unfold RSpline.splitAt
  rw [Spline.splitAt_throws h]
  rfl

theorem relativesFrom_length (rel : K → K → K) (zp : K) (zs : List K) : (relativesFrom rel zp zs).length = zs.length := by
  induction zs generalizing zp with
  | nil => rfl
  | cons z zs ih => simp [relativesFrom, ih]

theorem relatives_length (rel : K → K → K) (zs : List K) : (relatives rel zs).length = zs.length := by
  cases zs with
  | nil => rfl
  | cons z zs => simp [relatives, relativesFrom_length]

theorem cutsFrom_length [One K] [Add K] [Sub K] [Mul K] (c : K) (rs : List K) : (cutsFrom c rs).length = rs.length := by
  induction rs generalizing c with
  | nil => rfl
  | cons z zs ih => simp [cutsFrom, ih]
end

section
variable {K : Type} [Field K] [LinearOrder K] [IsStrictOrderedRing K]

theorem cutsFrom_increasing {c : K} (hc : c < 1) {rs : List K} (h : ∀ r ∈ rs, 0 < r ∧ r < 1) :
    (c :: cutsFrom c rs ++ [1]).Pairwise (· < ·) := by
  induction rs generalizing c with
  | nil => simpa [cutsFrom] using hc
  | cons r rs ih =>
    obtain ⟨h0, h1⟩ := h r (by simp)
    have hlt : c < c + (1 - c) * r := by nlinarith
    have hlt1 : c + (1 - c) * r < 1 := by nlinarith
    have := ih hlt1 fun x hx => h x (by simp [hx])
    rw [cutsFrom, List.cons_append, List.pairwise_cons]
    refine ⟨?_, this⟩
    intro y hy
    rw [List.cons_append, List.mem_cons] at hy
    rcases hy with rfl | hy
    · exact hlt
    · exact hlt.trans ((List.pairwise_cons.mp this).1 y hy)

/-- each part of a chain of cuts traces the geometry between two cuts -/
theorem cutChain_exact {σ : Type} {split : σ → K → M (σ × σ)} {C : σ → (K → K) → Prop}
    (hcong : ∀ s f g, C s f → (∀ x, f x = g x) → C s g)
    (hsplit : ∀ s f z, C s f → 0 < z → z < 1 →
      ∃ a b, split s z = .ok (a, b) ∧ C a (fun x => f (z * x)) ∧ C b (fun x => f (z + (1 - z) * x)))
    {c : K} {s : σ} (hs : C s (fun x => c + (1 - c) * x)) {rs : List K} (hr : ∀ r ∈ rs, 0 < r ∧ r < 1) :
    ∃ l, cutChain split s rs = .ok l ∧ l.length = rs.length + 1 ∧
      ∀ (i : ℕ) (a : σ) (lo hi : K), l[i]? = some a → (c :: cutsFrom c rs ++ [1])[i]? = some lo →
        (c :: cutsFrom c rs ++ [1])[i + 1]? = some hi → C a (fun x => lo + (hi - lo) * x) := by
  induction rs generalizing c s with
  | nil =>
    refine ⟨[s], rfl, rfl, fun i a lo hi h1 h2 h3 => ?_⟩
    cases i with
    | zero => simp [cutsFrom] at h1 h2 h3; subst h1; subst h2; subst h3; exact hs
    | succ i => simp at h1
  | cons r rs ih =>
    obtain ⟨h0, h1⟩ := hr r (by simp)
    obtain ⟨a, b, e, ca, cb⟩ := hsplit s _ r hs h0 h1
    obtain ⟨l, e2, h2, h3⟩ := ih (c := c + (1 - c) * r) (hcong _ _ _ cb fun x => by ring) fun x hx => hr x (by simp [hx])
    refine ⟨a :: l, by simp only [cutChain, e, bind_ok, e2]; rfl, by simp [h2], fun i x lo hi g1 g2 g3 => ?_⟩
    cases i with
    | zero =>
      simp [cutsFrom] at g1 g2 g3; subst g1; subst g2; subst g3
      exact hcong _ _ _ ca fun x => by ring
    | succ i =>
      refine h3 i x lo hi (by simpa using g1) ?_ ?_
      · simpa [cutsFrom] using g2
      · simpa [cutsFrom] using g3
end

/-- two chains of cuts with related steps -/
theorem cutChain_related {σ σ' K K' : Type} {split : σ → K → M (σ × σ)} {split' : σ' → K' → M (σ' × σ')} {v : K → K'} {m : ℕ}
    {R : ℕ → σ → σ' → Prop} {Q : K → Prop}
    (hstep : ∀ k a a' z, R k a a' → Q z →
      ∃ l r l' r', split a z = .ok (l, r) ∧ split' a' (v z) = .ok (l', r') ∧ R (k + m) l l' ∧ R (k + m) r r')
    {k : ℕ} {s : σ} {s' : σ'} (hs : R k s s') {rs : List K} (hr : ∀ r ∈ rs, Q r) :
    ∃ l l', cutChain split s rs = .ok l ∧ cutChain split' s' (rs.map v) = .ok l' ∧ l.length = rs.length + 1 ∧ l'.length = rs.length + 1 ∧
      ∀ (i : ℕ) a a', l[i]? = some a → l'[i]? = some a' → R (k + m * min (i + 1) rs.length) a a' := by
  induction rs generalizing k s s' with
  | nil =>
    refine ⟨[s], [s'], rfl, rfl, rfl, rfl, fun i a a' h1 h2 => ?_⟩
    cases i with
    | zero => simp at h1 h2; subst h1; subst h2; simpa using hs
    | succ i => simp at h1
  | cons r rs ih =>
    obtain ⟨a, b, a', b', e, e', ha, hb⟩ := hstep k s s' r hs (hr r (by simp))
    obtain ⟨l, l', f1, f2, f3, f4, f5⟩ := ih hb fun x hx => hr x (by simp [hx])
    refine ⟨a :: l, a' :: l', by simp only [cutChain, e, bind_ok, f1]; rfl,
      by simp only [List.map_cons, cutChain, e', bind_ok, f2]; rfl, by simp [f3], by simp [f4], fun i x x' g1 g2 => ?_⟩
    cases i with
    | zero =>
      simp at g1 g2; subst g1; subst g2
      have : min (0 + 1) (r :: rs).length = 1 := by simp
      rw [this, mul_one]; exact ha
    | succ i =>
      have := f5 i x x' (by simpa using g1) (by simpa using g2)
      have e : k + m * min (i + 1 + 1) (r :: rs).length = k + m + m * min (i + 1) rs.length := by
        rw [List.length_cons, Nat.add_min_add_right]; ring
      rw [e]; exact this

/-- The errors of the relative positions do not grow: each cut is about where it should be. -/
theorem cutsFrom_near {γ η : ℝ} (hγ : 0 ≤ γ) (hη : 0 ≤ η) {zs rs : List ℝ} {zp c e : ℝ} (hc : |c - zp| ≤ γ * zp + e) (hzp0 : 0 ≤ zp) (hzp : zp < 1)
    (hz : (zp :: zs).Pairwise (· < ·)) (hz1 : ∀ z ∈ zs, z < 1) (hr : ∀ r ∈ rs, 0 < r ∧ r < 1) (hlen : rs.length = zs.length)
    (herr : ∀ (i : ℕ) (a b r : ℝ), (zp :: zs)[i]? = some a → (zp :: zs)[i + 1]? = some b → rs[i]? = some r →
      |r - (b - a) / (1 - a)| ≤ γ * ((b - a) / (1 - a)) + η) :
    ∀ (i : ℕ) (c' z : ℝ), (cutsFrom c rs)[i]? = some c' → zs[i]? = some z → |c' - z| ≤ γ * z + (e + (i + 1) * η) := by
  induction zs generalizing zp c e rs with
  | nil => intro i c' z _ h; simp at h
  | cons z zs ih =>
    obtain _ | ⟨r, rs⟩ := rs
    · simp at hlen
    have hlt : zp < z := (List.pairwise_cons.mp hz).1 z (by simp)
    obtain ⟨r0, r1⟩ := hr r (by simp)
    have h1 := herr 0 zp z r rfl rfl rfl
    have hpos : 0 < 1 - zp := by linarith
    have key : |c + (1 - c) * r - z| ≤ γ * z + (e + η) := by
      have e1 : c + (1 - c) * r - z = (c - zp) * (1 - r) + (1 - zp) * (r - (z - zp) / (1 - zp)) := by
        field_simp; ring
      have h2 : |(c - zp) * (1 - r)| ≤ γ * zp + e := by
        rw [abs_mul, abs_of_pos (by linarith : 0 < 1 - r)]
        exact (mul_le_of_le_one_right (abs_nonneg _) (by linarith)).trans hc
      have h3 : |(1 - zp) * (r - (z - zp) / (1 - zp))| ≤ γ * (z - zp) + (1 - zp) * η := by
        rw [abs_mul, abs_of_pos hpos]
        calc (1 - zp) * _ ≤ (1 - zp) * (γ * ((z - zp) / (1 - zp)) + η) := mul_le_mul_of_nonneg_left h1 hpos.le
          _ = γ * (z - zp) + (1 - zp) * η := by field_simp
      have h4 : (1 - zp) * η ≤ η := mul_le_of_le_one_left hη (by linarith)
      rw [e1]
      refine (abs_add_le _ _).trans ?_
      linarith
    intro i c' z' g1 g2
    cases i with
    | zero =>
      simp [cutsFrom] at g1 g2; subst g1; subst g2
      simpa using key
    | succ i =>
      have := ih (rs := rs) key (by linarith) (hz1 z (by simp)) (List.pairwise_cons.mp hz).2 (fun x hx => hz1 x (by simp [hx]))
        (fun x hx => hr x (by simp [hx])) (by simpa using hlen)
        (fun j a b x f1 f2 f3 => herr (j + 1) a b x (by simpa using f1) (by simpa using f2) (by simpa using f3))
        i c' z' (by simpa [cutsFrom] using g1) (by simpa using g2)
      push_cast
      linarith

/-- the relative error of the relative position -/
theorem rel_err {A : FloatArith} (hη : A.η = 0) (hu : A.u < 1) {zp z : Fl A} (h1 : zp.val < z.val) (h2 : z.val < 1) :
    |((z - zp) / (1 - zp) : Fl A).val - (z.val - zp.val) / (1 - zp.val)|
      ≤ ((1 + A.u) ^ 2 / (1 - A.u) - 1) * ((z.val - zp.val) / (1 - zp.val)) := by
  have hu0 := A.u_nonneg
  set x := z.val - zp.val with hx
  set y := 1 - zp.val with hy
  have xpos : 0 < x := by linarith
  have ypos : 0 < y := by linarith
  have ex : |A.sub z.val zp.val - x| ≤ A.u * x := by
    have := A.sub_err z.val zp.val; rwa [← hx, abs_of_pos xpos] at this
  have ey : |A.sub 1 zp.val - y| ≤ A.u * y := by
    have := A.sub_err 1 zp.val; rwa [← hy, abs_of_pos ypos] at this
  set a := A.sub z.val zp.val with ha
  set b := A.sub 1 zp.val with hb
  rw [abs_le] at ex ey
  have apos : 0 ≤ a := by nlinarith
  have bpos : 0 < b := by nlinarith
  have ed := A.div_err a b bpos.ne'
  rw [hη, add_zero, abs_of_nonneg (div_nonneg apos bpos.le), abs_le] at ed
  have hv : ((z - zp) / (1 - zp) : Fl A).val = A.div a b := rfl
  rw [hv]
  set d := A.div a b with hd
  have hq : 0 < x / y := by positivity
  have up : a / b ≤ (1 + A.u) / (1 - A.u) * (x / y) := by
    rw [div_mul_div_comm]
    exact div_le_div₀ (by positivity) (by linarith) (by have : 0 < 1 - A.u := by linarith
                                                        positivity) (by linarith)
  have lo : (1 - A.u) / (1 + A.u) * (x / y) ≤ a / b := by
    rw [div_mul_div_comm]
    exact div_le_div₀ apos (by linarith) bpos (by linarith)
  have hg : (1 + A.u) ^ 2 / (1 - A.u) = (1 + A.u) * ((1 + A.u) / (1 - A.u)) := by ring
  have hg2 : 2 - (1 + A.u) * ((1 + A.u) / (1 - A.u)) ≤ (1 - A.u) * ((1 - A.u) / (1 + A.u)) := by
    have h3 : 0 < 1 - A.u := by linarith
    have h4 : 0 < 1 + A.u := by linarith
    rw [mul_div_assoc', mul_div_assoc', sub_le_iff_le_add, div_add_div _ _ h4.ne' h3.ne', le_div_iff₀ (by positivity)]
    nlinarith [sq_nonneg A.u, mul_nonneg hu0 (sq_nonneg A.u)]
  rw [abs_le, hg]
  constructor
  · have : (1 - A.u) * ((1 - A.u) / (1 + A.u) * (x / y)) ≤ (1 - A.u) * (a / b) := mul_le_mul_of_nonneg_left lo (by linarith)
    have h5 := mul_le_mul_of_nonneg_right hg2 hq.le
    nlinarith
  · have : (1 + A.u) * (a / b) ≤ (1 + A.u) * ((1 + A.u) / (1 - A.u) * (x / y)) := mul_le_mul_of_nonneg_left up (by linarith)
    nlinarith

end Bezman
