import Verif.Proofs.Evaluate

/-! Tensor products of basis values and weighted sums of control points. -/

namespace Bezman
open Spec Finset

section tens
variable {K V W : Type} [CommRing K] [AddCommGroup V] [Module K V] [AddCommGroup W] [Module K W]

/-- product `f_1(i_1) ⋯ f_d(i_d)` -/
def pw : List (ℕ → K) → List ℕ → K
  | f :: fs, i :: is => f i * pw fs is
  | _, _ => 1

@[simp] theorem pw_nil (is : List ℕ) : pw ([] : List (ℕ → K)) is = 1 := by cases is <;> rfl
@[simp] theorem pw_cons (f : ℕ → K) (fs : List (ℕ → K)) (i : ℕ) (is : List ℕ) :
    pw (f :: fs) (i :: is) = f i * pw fs is := rfl

theorem pw_append {fs gs : List (ℕ → K)} {is js : List ℕ} (h : is.length = fs.length) :
    pw (fs ++ gs) (is ++ js) = pw fs is * pw gs js := by
  induction fs generalizing is with
  | nil => cases is <;> simp_all
  | cons f fs ih =>
    cases is with
    | nil => simp at h
    | cons i is => simp at h; simp [ih h, mul_assoc]

/-- nested weighted sum `∑ f_1(i_1) • ⋯ ∑ f_d(i_d) • F (flat index)` -/
def tens : List ℕ → List (ℕ → K) → (ℕ → V) → V
  | [], _, F => F 0
  | p :: ps, b :: bs, F => ∑ i ∈ range (p + 1), b i • tens ps bs (fun j => F (i + (p + 1) * j))
  | _ :: _, [], _ => 0

@[simp] theorem tens_nil (bs : List (ℕ → K)) (F : ℕ → V) : tens [] bs F = F 0 := by
  cases bs <;> rfl
theorem tens_cons (p : ℕ) (ps : List ℕ) (b : ℕ → K) (bs : List (ℕ → K)) (F : ℕ → V) :
    tens (p :: ps) (b :: bs) F
      = ∑ i ∈ range (p + 1), b i • tens ps bs (fun j => F (i + (p + 1) * j)) := rfl

theorem tens_congr {ps : List ℕ} {bs : List (ℕ → K)} {F G : ℕ → V}
    (h : ∀ j, j < size ps → F j = G j) : tens ps bs F = tens ps bs G := by
  induction ps generalizing bs F G with
  | nil => simpa using h 0 (by simp)
  | cons p ps ih =>
    cases bs with
    | nil => rfl
    | cons b bs =>
      rw [tens_cons, tens_cons]
      apply sum_congr rfl
      intro i hi
      rw [ih]
      intro j hj
      apply h
      rw [size_cons]
      simp at hi
      calc i + (p + 1) * j < (p + 1) + (p + 1) * j := by omega
        _ = (p + 1) * (j + 1) := by ring
        _ ≤ (p + 1) * size ps := Nat.mul_le_mul_left _ hj

theorem tens_add (ps : List ℕ) (bs : List (ℕ → K)) (F G : ℕ → V) :
    tens ps bs (fun j => F j + G j) = tens ps bs F + tens ps bs G := by
  induction ps generalizing bs F G with
  | nil => simp
  | cons p ps ih =>
    cases bs with
    | nil => simp [tens]
    | cons b bs => simp only [tens_cons, ih, smul_add, sum_add_distrib]

theorem tens_smul (c : K) (ps : List ℕ) (bs : List (ℕ → K)) (F : ℕ → V) :
    tens ps bs (fun j => c • F j) = c • tens ps bs F := by
  induction ps generalizing bs F with
  | nil => simp
  | cons p ps ih =>
    cases bs with
    | nil => simp [tens]
    | cons b bs => simp only [tens_cons, ih, smul_sum, smul_comm c]

theorem tens_zero (ps : List ℕ) (bs : List (ℕ → K)) : tens ps bs (fun _ => (0 : V)) = 0 := by
  have := tens_smul (0 : K) ps bs (fun _ => (0 : V))
  simpa using this

theorem tens_sum {ι : Type} (s : Finset ι) (ps : List ℕ) (bs : List (ℕ → K)) (F : ι → ℕ → V) :
    tens ps bs (fun j => ∑ x ∈ s, F x j) = ∑ x ∈ s, tens ps bs (F x) := by
  classical
  induction s using Finset.induction_on with
  | empty => simp [tens_zero]
  | insert a s ha ih => simp only [sum_insert ha, tens_add, ih]

/-- Bernstein values as functions of the index, one per dimension -/
def bernFns (ps : List ℕ) (ts : List K) : List (ℕ → K) :=
  List.zipWith (fun p t => fun i => bern p i t) ps ts

@[simp] theorem bernFns_cons (p : ℕ) (ps : List ℕ) (t : K) (ts : List K) :
    bernFns (p :: ps) (t :: ts) = (fun i => bern p i t) :: bernFns ps ts := rfl

theorem neval_eq_tens (ps : List ℕ) (ts : List K) (F : ℕ → V) :
    neval ps ts F = tens ps (bernFns ps ts) F := by
  induction ps generalizing ts F with
  | nil => simp
  | cons p ps ih =>
    cases ts with
    | nil => rfl
    | cons t ts => rw [neval_cons, bernFns_cons, tens_cons]; simp only [ih]

theorem sum_range_mul {M : Type} [AddCommMonoid M] (a m : ℕ) (G : ℕ → M) :
    ∑ n ∈ range (a * m), G n = ∑ i ∈ range a, ∑ j ∈ range m, G (i + a * j) := by
  induction m with
  | zero => simp
  | succ m ih =>
    rw [Nat.mul_succ, sum_range_add, ih]
    simp only [sum_range_succ, sum_add_distrib]
    congr 1
    apply sum_congr rfl; intro i _; rw [add_comm]

theorem sum_pw (ps : List ℕ) {bs : List (ℕ → K)} (hl : bs.length = ps.length) (F : ℕ → V) :
    ∑ n ∈ range (size ps), pw bs (unflat ps n) • F n = tens ps bs F := by
  induction ps generalizing bs F with
  | nil => cases bs <;> simp_all [unflat]
  | cons p ps ih =>
    cases bs with
    | nil => simp at hl
    | cons b bs =>
      rw [size_cons, sum_range_mul, tens_cons]
      apply sum_congr rfl
      intro i hi
      simp only [mem_range] at hi
      rw [← ih (by simpa using hl), smul_sum]
      apply sum_congr rfl
      intro j _
      have e1 : (i + (p + 1) * j) % (p + 1) = i := by
        rw [Nat.add_mul_mod_self_left, Nat.mod_eq_of_lt hi]
      have e2 : (i + (p + 1) * j) / (p + 1) = j := by
        rw [Nat.add_mul_div_left _ _ (Nat.succ_pos p), Nat.div_eq_of_lt hi, zero_add]
      rw [unflat, e1, e2, pw_cons, smul_smul]

theorem unflat_append (l r : List ℕ) (n : ℕ) :
    unflat (l ++ r) n = unflat l n ++ unflat r (n / size l) := by
  induction l generalizing n with
  | nil => simp [unflat]
  | cons p l ih => simp [unflat, ih, Nat.div_div_eq_div_mul]

theorem unflat_add (l : List ℕ) (n i : ℕ) : unflat l (size l * i + n) = unflat l n := by
  induction l generalizing n i with
  | nil => simp [unflat]
  | cons p l ih =>
    rw [size_cons, unflat, unflat]
    rw [show (p + 1) * size l * i + n = n + (p + 1) * (size l * i) by ring,
      Nat.add_mul_mod_self_left, Nat.add_mul_div_left _ _ (Nat.succ_pos p)]
    rw [add_comm (n / _), ih]

end tens

section combine
variable {K : Type} [CommRing K]

theorem tab_add {α : Type} (a b : ℕ) (G : ℕ → α) :
    tab (a + b) G = tab a G ++ tab b (fun n => G (a + n)) := by
  simp [tab, List.range_add]

/-- the factor lists, as tables -/
def facLists (ps : List ℕ) (fs : List (ℕ → K)) : List (List K) :=
  List.zipWith (fun p f => tab (p + 1) f) ps fs

theorem facLists_getElem? {ps : List ℕ} {fs : List (ℕ → K)} {k p : ℕ} {f : ℕ → K}
    (hp : ps[k]? = some p) (hf : fs[k]? = some f) :
    (facLists ps fs)[k]? = some (tab (p + 1) f) := by
  simp [facLists, List.getElem?_zipWith, hp, hf]

theorem recursiveCombineAux_ok {ps : List ℕ} {fs : List (ℕ → K)} (hl : fs.length = ps.length) (k : ℕ)
    (hk : k < ps.length) (result : List K) (c : K) :
    recursiveCombine_ k (facLists ps fs) result c
      = .ok (result ++ tab (size (ps.take (k + 1)))
          (fun n => c * pw (fs.take (k + 1)) (unflat (ps.take (k + 1)) n))) := by
  induction k generalizing result c with
  | zero =>
    have hp : ps[0]? = some ps[0] := List.getElem?_eq_getElem hk
    have hf : fs[0]? = some fs[0] := List.getElem?_eq_getElem (by omega)
    rw [recursiveCombine_, rd_ok (facLists_getElem? hp hf)]
    simp only [bind_ok, tab_length]
    have : loop (ps[0] + 1) (fun i r => do
        let x ← rd (tab (ps[0] + 1) fs[0]) i
        pure (r ++ [c * x])) result
        = .ok (result ++ tab (ps[0] + 1) (fun i => c * fs[0] i)) := by
      apply loop_eq (fun k => result ++ tab k (fun i => c * fs[0] i))
      · simp [tab]
      · intro k hk; rw [rd_tab _ hk]; simp [tab_succ]
    rw [this]
    congr 2
    have e1 : ps.take 1 = [ps[0]] := by
      rw [List.take_one, List.head?_eq_getElem?, hp]; rfl
    have e2 : fs.take 1 = [fs[0]] := by
      rw [List.take_one, List.head?_eq_getElem?, hf]; rfl
    rw [zero_add, e1, e2]
    simp only [size_cons, size_nil, mul_one]
    apply tab_congr; intro i hi
    simp [unflat, Nat.mod_eq_of_lt hi]
  | succ k ih =>
    have hp : ps[k + 1]? = some ps[k + 1] := List.getElem?_eq_getElem hk
    have hf : fs[k + 1]? = some fs[k + 1] := List.getElem?_eq_getElem (by omega)
    rw [recursiveCombine_, rd_ok (facLists_getElem? hp hf)]
    simp only [bind_ok, tab_length]
    set l := ps.take (k + 1) with hldef
    set gs := fs.take (k + 1) with hgdef
    have e1 : ps.take (k + 1 + 1) = l ++ [ps[k + 1]] := List.take_succ_eq_append_getElem hk
    have e2 : fs.take (k + 1 + 1) = gs ++ [fs[k + 1]] :=
      List.take_succ_eq_append_getElem (by omega)
    have hlg : gs.length = l.length := by simp [hldef, hgdef, hl]
    set G : ℕ → K := fun n => c * pw (gs ++ [fs[k + 1]]) (unflat (l ++ [ps[k + 1]]) n) with hG
    have key : loop (ps[k + 1] + 1) (fun i r => do
        let x ← rd (tab (ps[k + 1] + 1) fs[k + 1]) i
        recursiveCombine_ k (facLists ps fs) r (c * x)) result
        = .ok (result ++ tab (size l * (ps[k + 1] + 1)) G) := by
      apply loop_eq (fun i => result ++ tab (size l * i) G)
      · simp [tab]
      · intro i hi
        rw [rd_tab _ hi]
        simp only [bind_ok]
        rw [ih (by omega), Nat.mul_succ, tab_add, List.append_assoc]
        congr 3
        apply tab_congr; intro n hn
        simp only [hG]
        rw [unflat_append, unflat_add, pw_append (by simp [hlg])]
        have : (size l * i + n) / size l = i := by
          rw [Nat.mul_add_div (size_pos l), Nat.div_eq_of_lt hn, add_zero]
        rw [this]
        simp [unflat, Nat.mod_eq_of_lt hi]
        ring
    rw [key, e1, e2, size_append]
    simp [hG]

theorem recursiveCombine_ok {ps : List ℕ} {fs : List (ℕ → K)} (hl : fs.length = ps.length)
    (hpos : 0 < ps.length) :
    recursiveCombine (facLists ps fs)
      = .ok (tab (size ps) (fun n => pw fs (unflat ps n))) := by
  unfold recursiveCombine
  have hlen : (facLists ps fs).length = ps.length := by simp [facLists, hl]
  rw [hlen, recursiveCombineAux_ok hl _ (by omega)]
  rw [show ps.length - 1 + 1 = ps.length by omega, List.take_length,
    List.take_of_length_le (by omega)]
  simp

end combine

namespace Spline
variable {K V : Type} [CommRing K] [AddCommGroup V] [Module K V]

/-- The loops filling one factor list per parametric dimension. -/
theorem contributions_ok {ps : List ℕ} {fs : List (ℕ → K)} (hl : fs.length = ps.length)
    (step : ℕ → M (List K))
    (hstep : ∀ d p f, ps[d]? = some p → fs[d]? = some f → step d = .ok (tab (p + 1) f)) :
    loop ps.length (fun d (factors : List (List K)) => do
        let b ← step d
        wr factors d b) (List.replicate ps.length [])
      = .ok (facLists ps fs) := by
  have hlen : (facLists ps fs).length = ps.length := by simp [facLists, hl]
  obtain ⟨r, h1, h2, h3⟩ := loop_inv (n := ps.length) (s := List.replicate ps.length ([] : List K))
    (f := fun d (factors : List (List K)) => do
        let b ← step d
        wr factors d b)
    (P := fun k r => r.length = ps.length ∧ ∀ d, d < k → r[d]? = (facLists ps fs)[d]?)
    ⟨by simp, fun d hd => by omega⟩
    (by
      rintro k hk r ⟨hr, hd⟩
      have hp : ps[k]? = some ps[k] := List.getElem?_eq_getElem hk
      have hf : fs[k]? = some fs[k] := List.getElem?_eq_getElem (by omega)
      rw [hstep k _ _ hp hf]
      simp only [bind_ok]
      refine ⟨_, wr_ok _ (by omega), by simp [hr], ?_⟩
      intro d hdk
      by_cases he : d = k
      · subst he
        rw [List.getElem?_set_self (by omega), facLists_getElem? hp hf]
      · rw [List.getElem?_set_ne (by omega)]; exact hd d (by omega))
  rw [h1]
  congr 1
  apply List.ext_getElem?
  intro i
  by_cases hi : i < ps.length
  · exact h3 i hi
  · rw [List.getElem?_eq_none (by omega), List.getElem?_eq_none (by omega)]

/-- `degrees < MAX_BINOMIAL_DEGREE` in every dimension -/
def DegOk (cfg : Cfg) (ps : List ℕ) : Prop := ∀ p ∈ ps, p < cfg.maxBinom

theorem bernFns_length {ps : List ℕ} {ts : List K} (h : ts.length = ps.length) :
    (bernFns ps ts).length = ps.length := by simp [bernFns, h]

theorem bernFns_getElem? {ps : List ℕ} {ts : List K} {d p : ℕ} {t : K} (hp : ps[d]? = some p)
    (ht : ts[d]? = some t) : (bernFns ps ts)[d]? = some (fun i => bern p i t) := by
  simp [bernFns, List.getElem?_zipWith, hp, ht]

omit [AddCommGroup V] in
theorem basisFunctionContributions_ok {cfg : Cfg} (hc : cfg.Ok) {s : Spline V}
    (hd : DegOk cfg s.degrees) {t : List K} (ht : t.length = s.dim) :
    s.basisFunctionContributions cfg t = .ok (facLists s.degrees (bernFns s.degrees t)) := by
  unfold basisFunctionContributions
  have := contributions_ok (bernFns_length (ps := s.degrees) ht)
    (fun d => do
      let p ← rd s.degrees d
      let x ← rd t d
      bernsteinEvaluate cfg p x) (by
      intro d p f hp hf
      have hlt : d < s.degrees.length := (List.getElem?_eq_some_iff.mp hp).1
      have hlt' : d < t.length := by rw [ht]; exact hlt
      have hx : t[d]? = some t[d] := List.getElem?_eq_getElem hlt'
      rw [bernFns_getElem? hp hx] at hf
      rw [rd_ok hp, rd_ok hx]
      simp only [bind_ok]
      rw [bernsteinEvaluate_ok hc (hd p (List.mem_of_getElem? hp))]
      simp at hf; rw [hf])
  rw [← this]
  simp only [dim, bind_assoc]

omit [AddCommGroup V] in
theorem basisFunctions_ok {cfg : Cfg} (hc : cfg.Ok) {s : Spline V} (hpos : 0 < s.dim)
    (hd : DegOk cfg s.degrees) {t : List K} (ht : t.length = s.dim) :
    s.basisFunctions cfg t
      = .ok (tab (size s.degrees) (fun n => pw (bernFns s.degrees t) (unflat s.degrees n))) := by
  unfold basisFunctions
  rw [basisFunctionContributions_ok hc hd ht]
  simp only [bind_ok]
  exact recursiveCombine_ok (bernFns_length (ps := s.degrees) ht) hpos

theorem weightedSum_ok {n : ℕ} {w : ℕ → K} {F : ℕ → V} :
    weightedSum (tab n w) (tab n F) = .ok (∑ i ∈ range n, w i • F i) := by
  unfold weightedSum
  rw [tab_length]
  apply loop_eq (fun k => ∑ i ∈ range k, w i • F i)
  · simp
  · intro k hk
    rw [rd_tab _ hk, rd_tab _ hk]
    simp [sum_range_succ]

theorem forwardEvaluate_ok {cfg : Cfg} (hc : cfg.Ok) {s : Spline V} (h : s.WF)
    (hd : DegOk cfg s.degrees) {t : List K} (ht : t.length = s.dim) :
    s.forwardEvaluate cfg t = .ok (s.value t) := by
  unfold forwardEvaluate
  rw [basisFunctions_ok hc h.dim_pos hd ht]
  simp only [bind_ok]
  rw [h.cps_tab, weightedSum_ok, value_eq_neval, neval_eq_tens,
    sum_pw _ (bernFns_length (ps := s.degrees) ht)]

end Spline
end Bezman
