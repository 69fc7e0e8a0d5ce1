import Verif.Spec.Faces
import Verif.Proofs.NetsProduct

/-! # Operations on patches that share a face -/

namespace Bezman
open Spec

theorem repeatFrom_congr {U : Type} {a n : ℕ} {f g : ℕ → U → U} {x : U} (h : ∀ i, a ≤ i → i < a + n → ∀ y, f i y = g i y) :
    repeatFrom a f x n = repeatFrom a g x n := by
  induction n with
  | zero => rfl
  | succ n ih =>
    rw [repeatFrom, repeatFrom, ih (fun i h1 h2 => h i h1 (by omega))]
    exact h _ (by omega) (by omega) _

section product
variable {K V W U : Type} [Mul K] [Div K] [NatCast K] [Add U] [SMul K U]

theorem productNet_congr {mul : V → W → U} : ∀ {ms ns ks : List ℕ} {c : K} {P P' : List ℕ → V} {Q Q' : List ℕ → W} {x : U},
    ns.length = ms.length → ks.length = ms.length → (∀ is, ValidIdx ms is → P is = P' is) → (∀ is, ValidIdx ns is → Q is = Q' is) →
    productNet mul ms ns ks c P Q x = productNet mul ms ns ks c P' Q' x
  | [], [], [], c, P, P', Q, Q', x, _, _, _, _ => rfl
  | [m], [n], [k], c, P, P', Q, Q', x, _, _, hP, hQ => by
    rw [productNet, productNet]
    refine repeatFrom_congr fun i h1 h2 y => ?_
    rw [hP [i] (by rw [validIdx_cons]; exact ⟨by omega, .nil⟩), hQ [k - i] (by rw [validIdx_cons]; exact ⟨by omega, .nil⟩)]
  | m :: m' :: ms, n :: n' :: ns, k :: k' :: ks, c, P, P', Q, Q', x, hl, hl', hP, hQ => by
    rw [productNet, productNet]
    refine repeatFrom_congr fun i h1 h2 y => ?_
    exact productNet_congr (by simpa using hl) (by simpa using hl')
      (fun is his => hP (i :: is) (by rw [validIdx_cons]; exact ⟨by omega, his⟩))
      (fun is his => hQ ((k - i) :: is) (by rw [validIdx_cons]; exact ⟨by omega, his⟩))

/-- on a face only one pair of layers contributes, with coefficient one -/
theorem face_range (side : Bool) (m n : ℕ) :
    faceIndex side (m + n) - n = faceIndex side m ∧ min (faceIndex side (m + n)) m + 1 - (faceIndex side (m + n) - n) = 1 ∧
      faceIndex side (m + n) - faceIndex side m = faceIndex side n := by
  cases side <;> simp [faceIndex]

theorem face_coef (side : Bool) (m n : ℕ) :
    productCoef K m n (faceIndex side (m + n)) (faceIndex side m) = ((1 : ℕ) : K) / ((1 : ℕ) : K) := by
  cases side <;> simp [faceIndex, productCoef]

theorem faceIndex_le (side : Bool) (p : ℕ) : faceIndex side p ≤ p := by cases side <;> simp [faceIndex]

theorem productNet_head {mul : V → W → U} (side : Bool) (m n : ℕ) (ms ns ks : List ℕ) (c : K) (P : List ℕ → V) (Q : List ℕ → W) (x : U)
    (hns : ns.length = ms.length) (hks : ks.length = ms.length) :
    productNet mul (m :: ms) (n :: ns) (faceIndex side (m + n) :: ks) c P Q x =
      match ms with
      | [] => x + (((1 : ℕ) : K) / ((1 : ℕ) : K)) • (c • mul (P [faceIndex side m]) (Q [faceIndex side n]))
      | m' :: ms => productNet mul (m' :: ms) ns ks (c * (((1 : ℕ) : K) / ((1 : ℕ) : K))) (fun is => P (faceIndex side m :: is))
          (fun is => Q (faceIndex side n :: is)) x := by
  obtain ⟨h1, h2, h3⟩ := face_range side m n
  cases ms with
  | nil =>
    cases ns with
    | cons _ _ => simp at hns
    | nil =>
      cases ks with
      | cons _ _ => simp at hks
      | nil =>
        rw [productNet, h2, h1, repeatFrom, repeatFrom, Nat.add_zero, face_coef, h3]
  | cons m' ms =>
    rw [productNet, h2, h1, repeatFrom, repeatFrom, Nat.add_zero, face_coef, h3]

/-- the control points of a product on a face depend on those of the factors on this face only -/
theorem productNet_face {mul : V → W → U} {sa sb : Bool} {m n m' n' : ℕ} :
    ∀ {d : ℕ} {ms ns ks : List ℕ} {c : K} {P P' : List ℕ → V} {Q Q' : List ℕ → W} {x : U},
    ns.length = ms.length → ks.length = ms.length → ms[d]? = some m → ns[d]? = some n →
    (∀ is, ValidIdx ms is → P (is.set d (faceIndex sa m)) = P' (is.set d (faceIndex sb m'))) →
    (∀ is, ValidIdx ns is → Q (is.set d (faceIndex sa n)) = Q' (is.set d (faceIndex sb n'))) →
    productNet mul ms ns (ks.set d (faceIndex sa (m + n))) c P Q x =
      productNet mul (ms.set d m') (ns.set d n') (ks.set d (faceIndex sb (m' + n'))) c P' Q' x
  | 0, m0 :: ms, n0 :: ns, k0 :: ks, c, P, P', Q, Q', x, hn, hk, h1, h2, hP, hQ => by
    simp only [List.getElem?_cons_zero, Option.some.injEq] at h1 h2
    subst h1; subst h2
    simp only [List.set_cons_zero]
    have hn' : ns.length = ms.length := by simpa using hn
    have hk' : ks.length = ms.length := by simpa using hk
    rw [productNet_head sa _ _ _ _ _ _ _ _ _ hn' hk', productNet_head sb _ _ _ _ _ _ _ _ _ hn' hk']
    cases ms with
    | nil =>
      cases ns with
      | cons _ _ => simp at hn'
      | nil =>
        have e1 := hP [0] (by rw [validIdx_cons]; exact ⟨Nat.zero_le _, .nil⟩)
        have e2 := hQ [0] (by rw [validIdx_cons]; exact ⟨Nat.zero_le _, .nil⟩)
        simp only [List.set_cons_zero] at e1 e2
        simp only [e1, e2]
    | cons m1 ms =>
      refine productNet_congr hn' hk' (fun is his => ?_) (fun is his => ?_)
      · exact hP (0 :: is) (by rw [validIdx_cons]; exact ⟨Nat.zero_le _, his⟩)
      · exact hQ (0 :: is) (by rw [validIdx_cons]; exact ⟨Nat.zero_le _, his⟩)
  | d + 1, [m0], n0 :: ns, k0 :: ks, c, P, P', Q, Q', x, hn, hk, h1, h2, hP, hQ => by simp at h1
  | d + 1, m0 :: m1 :: ms, n0 :: n1 :: ns, k0 :: k1 :: ks, c, P, P', Q, Q', x, hn, hk, h1, h2, hP, hQ => by
    rw [List.set_cons_succ, List.set_cons_succ, List.set_cons_succ, List.set_cons_succ]
    obtain ⟨m2, ms2, e2⟩ : ∃ m2 ms2, (m1 :: ms).set d m' = m2 :: ms2 := by
      cases d with
      | zero => exact ⟨_, _, rfl⟩
      | succ d => exact ⟨_, _, rfl⟩
    rw [e2, productNet, productNet]
    refine repeatFrom_congr fun i hi1 hi2 y => ?_
    rw [← e2]
    refine productNet_face (by simpa using hn) (by simpa using hk) (by simpa using h1) (by simpa using h2) (fun is his => ?_)
      (fun is his => ?_)
    · exact hP (i :: is) (by rw [validIdx_cons]; exact ⟨by omega, his⟩)
    · exact hQ ((k0 - i) :: is) (by rw [validIdx_cons]; exact ⟨by omega, his⟩)

end product
end Bezman
