import Verif.Proofs.Arith
import Verif.Proofs.Product

/-! # How many operations the control points of a result went through

For every arithmetic: properties `P k` of control points that get weaker with each operation. -/

namespace Bezman
open Spec

namespace Spline
variable {K V : Type} [One K] [Sub K] [Mul K] [Div K] [NatCast K] [Zero V] [Add V] [SMul K V]

theorem sum_set_succ {l : List ℕ} {d p : ℕ} (h : l[d]? = some p) : (l.set d (p + 1)).sum = l.sum + 1 := by
  rw [set_split h]
  conv_rhs => rw [list_split h]
  simp
  omega

/-- one degree elevation -/
theorem orderElevate_graded_at {P Q : V → Prop} (hm : ∀ a, P a → Q a) {p : ℕ}
    (hstep : ∀ i : ℕ, 1 ≤ i → i ≤ p → ∀ a b, P a → P b →
      Q ((1 - (i : K) * (1 / ((p + 1 : ℕ) : K))) • a + ((i : K) * (1 / ((p + 1 : ℕ) : K))) • b))
    {s r : Spline V} (hs : s.WF) {d : ℕ} (hp : s.degrees[d]? = some p) (hsz : size (s.degrees.set d (p + 1)) < 2 ^ 31)
    (h : orderElevate K s d = .ok r) (hP : ∀ x ∈ s.cps, P x) :
    r.WF ∧ r.degrees = s.degrees.set d (p + 1) ∧ ∀ x ∈ r.cps, Q x := by
  rw [orderElevate_mem hs hp hsz] at h
  cases h
  refine ⟨⟨by have := hs.dim_pos; simpa using this, rfl, rfl, by simp⟩, rfl, ?_⟩
  intro x hx
  obtain ⟨i, hi, rfl⟩ := List.mem_iff_getElem.mp hx
  have hi' : i < size (s.degrees.set d (p + 1)) := by simpa using hi
  rw [show (⟨s.degrees.set d (p + 1), size (s.degrees.set d (p + 1)), offsetsOf (s.degrees.set d (p + 1)),
      tab (size (s.degrees.set d (p + 1))) (elevNew K p (size (s.degrees.take d)) (fun i => s.cps.getD i 0))⟩ : Spline V).cps[i] =
    elevNew K p (size (s.degrees.take d)) (fun i => s.cps.getD i 0) i by simp [tab]]
  clear hx hi
  set so := size (s.degrees.take d) with hso
  set G := size (s.degrees.drop (d + 1)) with hG
  have hso0 : 0 < so := size_pos _
  have hN : size s.degrees = so * ((p + 1) * G) := by
    conv_lhs => rw [list_split hp, size_append, size_cons]
  have hN' : size (s.degrees.set d (p + 1)) = so * ((p + 2) * G) := by
    rw [set_split hp, size_append, size_cons]
  rw [hN'] at hi'
  have h1 : i / so / (p + 2) < G := by
    rw [Nat.div_lt_iff_lt_mul (by omega), Nat.div_lt_iff_lt_mul hso0]
    calc i < so * ((p + 2) * G) := hi'
      _ = _ := by ring
  have hmem : ∀ j ≤ p, P (s.cps.getD (i % so + so * (j + (p + 1) * (i / so / (p + 2)))) 0) := by
    intro j hj
    refine hP _ ?_
    have hlt : i % so + so * (j + (p + 1) * (i / so / (p + 2))) < s.cps.length := by
      rw [hs.cps_len, hN]
      have h2 := Nat.mod_lt i hso0
      have h3 : (p + 1) * (i / so / (p + 2) + 1) ≤ (p + 1) * G := Nat.mul_le_mul_left _ h1
      have h4 : j + (p + 1) * (i / so / (p + 2)) + 1 ≤ (p + 1) * G := by rw [Nat.mul_succ] at h3; omega
      have h5 := Nat.mul_le_mul_left so h4
      rw [Nat.mul_succ] at h5; omega
    rw [List.getD_eq_getElem?_getD, List.getElem?_eq_getElem hlt, Option.getD_some]
    exact List.getElem_mem _
  unfold elevNew elev
  have h6 : i / so % (p + 2) < p + 2 := Nat.mod_lt _ (by omega)
  split
  · exact hm _ (hmem _ (by omega))
  · split
    · exact hm _ (hmem _ (by omega))
    · exact hstep _ (by omega) (by omega) _ _ (hmem _ (by omega)) (hmem _ (by omega))

@[inherit_doc orderElevate_graded_at]
theorem orderElevate_graded {P Q : V → Prop} (hm : ∀ a, P a → Q a)
    (hstep : ∀ p i : ℕ, 1 ≤ i → i ≤ p → ∀ a b, P a → P b →
      Q ((1 - (i : K) * (1 / ((p + 1 : ℕ) : K))) • a + ((i : K) * (1 / ((p + 1 : ℕ) : K))) • b))
    {s r : Spline V} (hs : s.WF) {d p : ℕ} (hp : s.degrees[d]? = some p) (hsz : size (s.degrees.set d (p + 1)) < 2 ^ 31)
    (h : orderElevate K s d = .ok r) (hP : ∀ x ∈ s.cps, P x) :
    r.WF ∧ r.degrees = s.degrees.set d (p + 1) ∧ ∀ x ∈ r.cps, Q x :=
  orderElevate_graded_at hm (hstep p) hs hp hsz h hP

/-- elevation to given degrees -/
theorem elevateTo_graded {P : ℕ → V → Prop} (hm : ∀ k a, P k a → P (k + 1) a)
    (hstep : ∀ k p i : ℕ, 1 ≤ i → i ≤ p → ∀ a b, P k a → P k b →
      P (k + 1) ((1 - (i : K) * (1 / ((p + 1 : ℕ) : K))) • a + ((i : K) * (1 / ((p + 1 : ℕ) : K))) • b))
    {cfg : Cfg} {s r : Spline V} (hs : s.WF) {target : List ℕ} (hl : target.length = s.dim)
    (hsz : size (maxDeg s.degrees target) < 2 ^ 31) (h : elevateTo K cfg s target = .ok r) {k : ℕ} (hP : ∀ x ∈ s.cps, P k x) :
    r.WF ∧ r.degrees = maxDeg s.degrees target ∧ ∀ x ∈ r.cps, P (k + ((maxDeg s.degrees target).sum - s.degrees.sum)) x := by
  unfold elevateTo at h
  have inv := loop_ok (P := fun d r => r.WF ∧ r.degrees.length = s.dim ∧
      (∀ e, e < d → r.degrees[e]? = (maxDeg s.degrees target)[e]?) ∧
      (∀ e, d ≤ e → r.degrees[e]? = s.degrees[e]?) ∧ s.degrees.sum ≤ r.degrees.sum ∧
      ∀ x ∈ r.cps, P (k + (r.degrees.sum - s.degrees.sum)) x) h
    ⟨hs, rfl, fun e he => by omega, fun e _ => rfl, le_rfl, by simpa using hP⟩
    (by
      rintro d hd r r' ⟨hWF, hlen, hlo, hhi, hle, hv⟩ hw
      have hp : s.degrees[d]? = some s.degrees[d] := List.getElem?_eq_getElem hd
      have hT : target[d]? = some target[d] := List.getElem?_eq_getElem (by omega)
      set T := target[d] with hTdef
      obtain ⟨⟨x, hx0, hx1, hx2, hWF', hlen', hlo', hhi', hle', hv'⟩, hr3⟩ := whileM_ok
        (P := fun r : Spline V => ∃ x, r.degrees[d]? = some x ∧ s.degrees[d] ≤ x ∧ x ≤ max s.degrees[d] T ∧
          r.WF ∧ r.degrees.length = s.dim ∧
          (∀ e, e < d → r.degrees[e]? = (maxDeg s.degrees target)[e]?) ∧
          (∀ e, d + 1 ≤ e → r.degrees[e]? = s.degrees[e]?) ∧ s.degrees.sum ≤ r.degrees.sum ∧
          ∀ x ∈ r.cps, P (k + (r.degrees.sum - s.degrees.sum)) x)
        (by
          rintro r r' ⟨x, hx0, hx1, hx2, hWF, hlen, hlo, hhi, hle, hv⟩ hc hr'
          rw [rd_ok hT, rd_ok hx0] at hc
          have hTx : T > x := by simpa using hc
          have hdr : d < r.degrees.length := by rw [hlen]; exact hd
          have hsz : size (r.degrees.set d (x + 1)) < 2 ^ 31 := by
            refine lt_of_le_of_lt (size_mono ?_ ?_) hsz
            · rw [maxDeg_length hl, List.length_set]; exact hlen
            · intro e y z hy hz
              by_cases hed : e = d
              · subst hed
                rw [List.getElem?_set_self hdr] at hy
                rw [maxDeg_getElem? hp hT] at hz
                simp at hy hz; omega
              · rw [List.getElem?_set_ne (by omega)] at hy
                by_cases hed' : e < d
                · rw [hlo e hed', hz] at hy; simp at hy; omega
                · rw [hhi e (by omega)] at hy
                  have hes : e < s.degrees.length := (List.getElem?_eq_some_iff.mp hy).1
                  have hes' : e < target.length := by rw [hl]; exact hes
                  have hte : target[e]? = some target[e] := List.getElem?_eq_getElem hes'
                  rw [maxDeg_getElem? hy hte] at hz
                  simp at hz; omega
          obtain ⟨e2, e3, e4⟩ := orderElevate_graded (hm (k + (r.degrees.sum - s.degrees.sum)))
            (hstep (k + (r.degrees.sum - s.degrees.sum))) hWF hx0 hsz hr' hv
          have e5 : r'.degrees.sum = r.degrees.sum + 1 := by rw [e3, sum_set_succ hx0]
          refine ⟨x + 1, ?_, by omega, by omega, e2, by simp [e3, hlen], ?_, ?_, by omega, ?_⟩
          · rw [e3, List.getElem?_set_self hdr]
          · intro e he; rw [e3, List.getElem?_set_ne (by omega)]; exact hlo e he
          · intro e he; rw [e3, List.getElem?_set_ne (by omega)]; exact hhi e he
          · rw [e5, show r.degrees.sum + 1 - s.degrees.sum = r.degrees.sum - s.degrees.sum + 1 by omega]
            exact e4) cfg.fuel r r'
        ⟨s.degrees[d], by rw [hhi d le_rfl]; exact hp, le_rfl, le_max_left _ _, hWF, hlen, hlo,
          fun e he => hhi e (by omega), hle, hv⟩ hw
      refine ⟨hWF', hlen', ?_, hhi', hle', hv'⟩
      intro e he
      by_cases hed : e = d
      · subst hed
        rw [rd_ok hT, rd_ok hx0] at hr3
        simp at hr3
        rw [hx0, maxDeg_getElem? hp hT]
        congr 1; omega
      · exact hlo' e (by omega))
  obtain ⟨hWF, hlen, hlo, hhi, hle, hv⟩ := inv
  have e : r.degrees = maxDeg s.degrees target := by
    apply List.ext_getElem?
    intro e
    by_cases he : e < s.dim
    · exact hlo e he
    · rw [List.getElem?_eq_none (by omega), List.getElem?_eq_none (by rw [maxDeg_length hl]; exact not_lt.mp he)]
  rw [e] at hv
  exact ⟨hWF, e, hv⟩

omit [One K] [Sub K] [Mul K] [Div K] [NatCast K] [Zero V] [Add V] [SMul K V] in
theorem zipCps_graded {P Q R : V → Prop} {f : V → V → V} (hf : ∀ a b, P a → Q b → R (f a b)) {n : ℕ} {a b c : List V} (hn : a.length = n)
    (ha : ∀ x ∈ a, P x) (hb : ∀ x ∈ b, Q x) (h : zipCps n f a b = .ok c) : ∀ x ∈ c, R x := by
  unfold zipCps at h
  obtain ⟨h1, h2⟩ := loop_ok (P := fun k c => c.length = n ∧ ∀ (i : ℕ) (x : V), c[i]? = some x → if i < k then R x else P x) h
    ⟨hn, fun i x hx => by rw [if_neg (by omega)]; exact ha x (List.mem_of_getElem? hx)⟩
    (by
      rintro k hk c c' ⟨hl, hc⟩ hw
      obtain ⟨x, hx, hw⟩ := bind_eq_ok.mp hw
      obtain ⟨y, hy, hw⟩ := bind_eq_ok.mp hw
      rw [rd_ok_iff] at hx hy
      rw [wr_ok _ (by omega)] at hw
      cases hw
      refine ⟨by simpa using hl, fun i z hz => ?_⟩
      rw [List.getElem?_set] at hz
      by_cases hik : k = i
      · subst hik
        rw [if_pos rfl, if_pos (by omega)] at hz
        cases hz
        rw [if_pos (by omega)]
        have := hc k x hx
        rw [if_neg (by omega)] at this
        exact hf _ _ this (hb y (List.mem_of_getElem? hy))
      · rw [if_neg hik] at hz
        have := hc i z hz
        by_cases h : i < k
        · rw [if_pos h] at this; rw [if_pos (by omega)]; exact this
        · rw [if_neg h] at this; rw [if_neg (by omega)]; exact this)
  intro x hx
  obtain ⟨i, hi⟩ := List.mem_iff_getElem?.mp hx
  have := h2 i x hi
  rwa [if_pos (by have := (List.getElem?_eq_some_iff.mp hi).1; omega)] at this

/-- what elevation does to a property -/
def Elevates (K : Type) {V : Type} [One K] [Sub K] [Mul K] [Div K] [NatCast K] [Add V] [SMul K V] (P : ℕ → V → Prop) : Prop :=
  (∀ k a, P k a → P (k + 1) a) ∧ ∀ k p i : ℕ, 1 ≤ i → i ≤ p → ∀ a b, P k a → P k b →
    P (k + 1) ((1 - (i : K) * (1 / ((p + 1 : ℕ) : K))) • a + ((i : K) * (1 / ((p + 1 : ℕ) : K))) • b)

omit [Zero V] in
theorem Elevates.le {P : ℕ → V → Prop} (h : Elevates K P) {j k : ℕ} (hjk : j ≤ k) {a : V} (ha : P j a) : P k a := by
  induction hjk with
  | refl => exact ha
  | step _ ih => exact h.1 _ _ ih

theorem addAux_graded {cfg : Cfg} (depth : ℕ) {P Q : ℕ → V → Prop} {R : V → Prop} (hP : Elevates K P) (hQ : Elevates K Q)
    {s rhs r : Spline V} (hs : s.WF) (hr : rhs.WF) (hl : rhs.dim = s.dim) (hsz : size (maxDeg s.degrees rhs.degrees) < 2 ^ 31)
    {j k : ℕ} (ha : ∀ x ∈ s.cps, P j x) (hb : ∀ x ∈ rhs.cps, Q k x)
    (hR : ∀ a b, P (j + ((maxDeg s.degrees rhs.degrees).sum - s.degrees.sum)) a →
      Q (k + ((maxDeg s.degrees rhs.degrees).sum - rhs.degrees.sum)) b → R (a + b) ∧ R (b + a))
    (h : addAux K cfg depth s rhs = .ok r) : ∀ x ∈ r.cps, R x := by
  induction depth generalizing P Q s rhs j k with
  | zero => cases h
  | succ depth ih =>
    rw [addAux, ofPoints_self hs] at h
    simp only [bind_ok] at h
    obtain ⟨c, -, h⟩ := bind_eq_ok.mp h
    obtain ⟨ret, h1, h⟩ := bind_eq_ok.mp h
    obtain ⟨w1, w2, w3⟩ := elevateTo_graded hP.1 hP.2 hs hl hsz h1 ha
    split at h
    · obtain ⟨cps, h2, h⟩ := bind_eq_ok.mp h
      cases h
      exact zipCps_graded (fun a b ha hb => (hR a b ha (hQ.le (Nat.le_add_right _ _) hb)).1) (by rw [w1.cps_len, w1.ncp_eq]) w3 hb h2
    · have e : maxDeg rhs.degrees ret.degrees = maxDeg s.degrees rhs.degrees := by
        rw [w2, maxDeg_comm, maxDeg_assoc, maxDeg_self]
      refine ih hQ hP hr w1 ?_ (by rw [e]; exact hsz) hb w3 ?_ h
      · show ret.degrees.length = rhs.degrees.length
        rw [w2, maxDeg_length hl]; exact hl.symm
      · intro a b ha hb
        rw [e] at ha
        rw [e, w2, Nat.sub_self, Nat.add_zero] at hb
        exact (hR b a hb ha).symm

theorem addAssign_graded {cfg : Cfg} {P Q : ℕ → V → Prop} {R : V → Prop} (hP : Elevates K P) (hQ : Elevates K Q)
    {s rhs r : Spline V} (hs : s.WF) (hr : rhs.WF) (hl : rhs.dim = s.dim) (hsz : size (maxDeg s.degrees rhs.degrees) < 2 ^ 31)
    {j k : ℕ} (ha : ∀ x ∈ s.cps, P j x) (hb : ∀ x ∈ rhs.cps, Q k x)
    (hR : ∀ a b, P (j + ((maxDeg s.degrees rhs.degrees).sum - s.degrees.sum)) a →
      Q (k + ((maxDeg s.degrees rhs.degrees).sum - rhs.degrees.sum)) b → R (a + b))
    (h : addAssign K cfg s rhs = .ok r) : ∀ x ∈ r.cps, R x := by
  unfold addAssign at h
  obtain ⟨s', h1, h⟩ := bind_eq_ok.mp h
  obtain ⟨w1, w2, w3⟩ := elevateTo_graded hP.1 hP.2 hs hl hsz h1 ha
  have e : maxDeg rhs.degrees s'.degrees = maxDeg s.degrees rhs.degrees := by
    rw [w2, maxDeg_comm, maxDeg_assoc, maxDeg_self]
  obtain ⟨rhs', h2, h⟩ := bind_eq_ok.mp h
  obtain ⟨v1, v2, v3⟩ := elevateTo_graded hQ.1 hQ.2 hr (by rw [w2, maxDeg_length hl]; exact hl.symm) (by rw [e]; exact hsz) h2 hb
  rw [e] at v3
  obtain ⟨cps, h2, h⟩ := bind_eq_ok.mp h
  cases h
  exact zipCps_graded hR (by rw [w1.cps_len, w1.ncp_eq]) w3 v3 h2

theorem subAssign_graded [Sub V] {cfg : Cfg} {P Q : ℕ → V → Prop} {R : V → Prop} (hP : Elevates K P) (hQ : Elevates K Q)
    {s rhs r : Spline V} (hs : s.WF) (hr : rhs.WF) (hl : rhs.dim = s.dim) (hsz : size (maxDeg s.degrees rhs.degrees) < 2 ^ 31)
    {j k : ℕ} (ha : ∀ x ∈ s.cps, P j x) (hb : ∀ x ∈ rhs.cps, Q k x)
    (hR : ∀ a b, P (j + ((maxDeg s.degrees rhs.degrees).sum - s.degrees.sum)) a →
      Q (k + ((maxDeg s.degrees rhs.degrees).sum - rhs.degrees.sum)) b → R (a - b))
    (h : subAssign K cfg s rhs = .ok r) : ∀ x ∈ r.cps, R x := by
  unfold subAssign at h
  obtain ⟨s', h1, h⟩ := bind_eq_ok.mp h
  obtain ⟨w1, w2, w3⟩ := elevateTo_graded hP.1 hP.2 hs hl hsz h1 ha
  have e : maxDeg rhs.degrees s'.degrees = maxDeg s.degrees rhs.degrees := by
    rw [w2, maxDeg_comm, maxDeg_assoc, maxDeg_self]
  obtain ⟨rhs', h2, h⟩ := bind_eq_ok.mp h
  obtain ⟨v1, v2, v3⟩ := elevateTo_graded hQ.1 hQ.2 hr (by rw [w2, maxDeg_length hl]; exact hl.symm) (by rw [e]; exact hsz) h2 hb
  rw [e] at v3
  obtain ⟨cps, h2, h⟩ := bind_eq_ok.mp h
  cases h
  exact zipCps_graded hR (by rw [w1.cps_len, w1.ncp_eq]) w3 v3 h2

theorem subOp_graded [Sub V] {cfg : Cfg} {P Q : ℕ → V → Prop} {R : V → Prop} (hP : Elevates K P) (hQ : Elevates K Q)
    {s rhs r : Spline V} (hs : s.WF) (hr : rhs.WF) (hl : rhs.dim = s.dim) (hsz : size (maxDeg s.degrees rhs.degrees) < 2 ^ 31)
    {j k : ℕ} (ha : ∀ x ∈ s.cps, P j x) (hb : ∀ x ∈ rhs.cps, Q k x)
    (hR : ∀ a b, P (j + ((maxDeg s.degrees rhs.degrees).sum - s.degrees.sum)) a →
      Q (k + ((maxDeg s.degrees rhs.degrees).sum - rhs.degrees.sum)) b → R (a - b))
    (h : subOp K cfg s rhs = .ok r) : ∀ x ∈ r.cps, R x := by
  unfold subOp at h
  rw [ofPoints_self hs] at h
  simp only [bind_ok] at h
  obtain ⟨s', h1, h⟩ := bind_eq_ok.mp h
  obtain ⟨e1, -⟩ := loop_ok (P := fun d r => r = s ∧ ∀ e < d, ∀ q p : ℕ, rhs.degrees[e]? = some q → s.degrees[e]? = some p → q ≤ p) h1
    ⟨rfl, fun e he => by omega⟩ (by
      rintro d hd x x' ⟨rfl, hx⟩ hw
      have hd2 : d < x.degrees.length := hd
      have hd1 : d < rhs.degrees.length := by rw [show rhs.degrees.length = x.degrees.length from hl]; exact hd2
      have hq := List.getElem?_eq_getElem hd1
      have hp := List.getElem?_eq_getElem hd2
      rw [rd_ok hq, rd_ok hp] at hw
      simp only [bind_ok, pure_eq_ok] at hw
      by_cases hlt : rhs.degrees[d] > x.degrees[d]
      · exact absurd (whileM_ok (fun _ => True) (fun _ _ _ _ _ => trivial) _ _ _ trivial hw).2 (by simp [hlt])
      · cases hf : cfg.fuel with
        | zero => rw [hf] at hw; cases hw
        | succ n =>
          rw [hf, whileM_false (Nat.succ_pos n) (by simp [hlt])] at hw
          cases hw
          refine ⟨rfl, fun e he q p h1 h2 => ?_⟩
          by_cases hed : e = d
          · subst hed; rw [hq] at h1; rw [hp] at h2; cases h1; cases h2; omega
          · exact hx e (by omega) q p h1 h2)
  subst e1
  obtain ⟨rhs', h2, h⟩ := bind_eq_ok.mp h
  have e : maxDeg rhs.degrees s'.degrees = maxDeg s'.degrees rhs.degrees := maxDeg_comm _ _
  obtain ⟨v1, v2, v3⟩ := elevateTo_graded hQ.1 hQ.2 hr hl.symm (by rw [e]; exact hsz) h2 hb
  rw [e] at v3
  obtain ⟨cps, h2, h⟩ := bind_eq_ok.mp h
  cases h
  exact zipCps_graded (fun a b ha hb => hR a b (hP.le (Nat.le_add_right _ _) ha) hb) (by rw [hs.cps_len, hs.ncp_eq]) ha v3 h2

end Spline

/-! ## Products -/

namespace Spline
variable {K V W U : Type} [One K] [Mul K] [Div K] [NatCast K] [Zero U] [Add U] [SMul K U]

/-- how many products of control points contribute to a control point of the product, at most -/
def prodTerms (p q : List ℕ) : List ℕ := List.zipWith (fun m n => min m n + 1) p q

theorem prodTerms_drop {p q : List ℕ} {d m n : ℕ} (hm : p[d]? = some m) (hn : q[d]? = some n) :
    ((prodTerms p q).drop d).prod = (min m n + 1) * ((prodTerms p q).drop (d + 1)).prod := by
  obtain ⟨h1, rfl⟩ := List.getElem?_eq_some_iff.mp hm
  obtain ⟨h2, rfl⟩ := List.getElem?_eq_some_iff.mp hn
  rw [List.drop_eq_getElem_cons (by simp [prodTerms]; exact ⟨h1, h2⟩), List.prod_cons]
  simp [prodTerms]

theorem prodTerms_pos (p q : List ℕ) (d : ℕ) : 0 < ((prodTerms p q).drop d).prod := by
  apply List.prod_pos
  intro a ha
  have := List.mem_of_mem_drop ha
  obtain ⟨i, hi, rfl⟩ := List.mem_iff_getElem.mp this
  simp [prodTerms]

theorem combineForProduct_graded {cfg : Cfg} (hc : cfg.Ok) {mul : V → W → U} {P : Spline V} {Q : Spline W} {ks : List ℕ}
    {L : K → Prop} {F : ℕ → K → Prop} {T : U → Prop} {G : ℕ → U → Prop} {D f : ℕ}
    (hL : ∀ c d : ℕ, 0 < d → L ((c : K) / (d : K))) (hF : ∀ j a b, F j a → L b → F (j + 1) (a * b))
    (hT : ∀ a l x y, F D a → L l → x ∈ P.cps → y ∈ Q.cps → T (l • (a • mul x y)))
    (hG : ∀ j x t, G j x → T t → G (j + 1) (x + t)) (hmono : ∀ j x, G j x → G (j + 1) x)
    (hks : ∀ d k m n : ℕ, ks[d]? = some k → P.degrees[d]? = some m → Q.degrees[d]? = some n → k ≤ m + n)
    (rem : ℕ) {factor : K} {indices : List ℕ} {R R' : Spline U} (hrem : indices.length + rem = D) (hfac : F indices.length factor)
    (hf : R.globalToLocal ks = .ok f) {j : ℕ} (hx : ∀ x, R.cps[f]? = some x → G j x)
    (h : combineForProduct cfg mul P Q ks rem factor indices R = .ok R') :
    R'.degrees = R.degrees ∧ R'.ncp = R.ncp ∧ R'.offsets = R.offsets ∧ R'.cps.length = R.cps.length ∧
      (∀ i, i ≠ f → R'.cps[i]? = R.cps[i]?) ∧
      ∀ x, R'.cps[f]? = some x → G (j + ((prodTerms P.degrees Q.degrees).drop indices.length).prod) x := by
  have hle : ∀ {a b : ℕ} {x : U}, a ≤ b → G a x → G b x := by
    intro a b x hab ha
    induction hab with
    | refl => exact ha
    | step _ ih => exact hmono _ _ ih
  induction rem generalizing factor indices R R' j with
  | zero =>
    rw [combineForProduct] at h
    obtain ⟨k, e1, h⟩ := bind_eq_ok.mp h
    obtain ⟨m, e2, h⟩ := bind_eq_ok.mp h
    obtain ⟨n, e3, h⟩ := bind_eq_ok.mp h
    rw [rd_ok_iff] at e1 e2 e3
    have hkmn := hks _ k m n e1 e2 e3
    have hab : k - n ≤ min k m + 1 := by omega
    obtain ⟨w1, w2, w3, w4, w5, w6⟩ := loopFrom_ok (P := fun i R' => R'.degrees = R.degrees ∧ R'.ncp = R.ncp ∧ R'.offsets = R.offsets ∧
      R'.cps.length = R.cps.length ∧ (∀ i, i ≠ f → R'.cps[i]? = R.cps[i]?) ∧ ∀ x, R'.cps[f]? = some x → G (j + (i - (k - n))) x) hab h
      ⟨rfl, rfl, rfl, rfl, fun _ _ => rfl, by simpa using hx⟩ (by
        rintro i hi1 hi2 S S' ⟨w1, w2, w3, w4, w5, w6⟩ hS
        obtain ⟨c1, -, hS⟩ := bind_eq_ok.mp hS
        obtain ⟨c2, -, hS⟩ := bind_eq_ok.mp hS
        obtain ⟨c3, h3, hS⟩ := bind_eq_ok.mp hS
        obtain ⟨ir, -, hS⟩ := bind_eq_ok.mp hS
        obtain ⟨x, hx, hS⟩ := bind_eq_ok.mp hS
        obtain ⟨a, ha, hS⟩ := bind_eq_ok.mp hS
        obtain ⟨b, hb, hS⟩ := bind_eq_ok.mp hS
        have hc3 : 0 < c3 := by
          have hlt : m + n < cfg.maxBinom := by
            by_contra hlt
            rw [choose_assert (by omega)] at h3; cases h3
          rw [choose_ok hc hlt hkmn] at h3
          cases h3
          exact Nat.choose_pos hkmn
        have hf' : S.globalToLocal ks = .ok f := by
          rw [← hf]; unfold globalToLocal dim; rw [w1, w3]
        unfold controlPoint at hx ha hb
        unfold setControlPoint at hS
        rw [hf'] at hx hS
        simp only [bind_ok] at hx hS
        obtain ⟨ia, -, ha⟩ := bind_eq_ok.mp ha
        obtain ⟨ib, -, hb⟩ := bind_eq_ok.mp hb
        rw [rd_ok_iff] at hx ha hb
        obtain ⟨cps, hw, hS⟩ := bind_eq_ok.mp hS
        have hfl := (List.getElem?_eq_some_iff.mp hx).1
        rw [wr_ok _ hfl] at hw
        cases hw
        cases hS
        refine ⟨w1, w2, w3, by simpa using w4, fun i hi => ?_, fun y hy => ?_⟩
        · show (S.cps.set f _)[i]? = _
          rw [List.getElem?_set_ne (Ne.symm hi)]; exact w5 i hi
        · replace hy : (S.cps.set f (x + (((mul64 c1 c2 : ℕ) : K) / ((c3 : ℕ) : K)) • (factor • mul a b)))[f]? = some y := hy
          rw [List.getElem?_set_self hfl] at hy
          cases hy
          rw [show i + 1 - (k - n) = i - (k - n) + 1 by omega, ← Nat.add_assoc]
          exact hG _ _ _ (w6 x hx) (hT _ _ _ _ (by rw [← hrem]; exact hfac) (hL _ _ hc3) (List.mem_of_getElem? ha) (List.mem_of_getElem? hb)))
    refine ⟨w1, w2, w3, w4, w5, fun x hx => hle ?_ (w6 x hx)⟩
    rw [prodTerms_drop e2 e3]
    have := Nat.mul_le_mul_left (min m n + 1) (prodTerms_pos P.degrees Q.degrees (indices.length + 1))
    omega
  | succ rem ih =>
    rw [combineForProduct] at h
    obtain ⟨k, e1, h⟩ := bind_eq_ok.mp h
    obtain ⟨m, e2, h⟩ := bind_eq_ok.mp h
    obtain ⟨n, e3, h⟩ := bind_eq_ok.mp h
    rw [rd_ok_iff] at e1 e2 e3
    have hkmn := hks _ k m n e1 e2 e3
    have hab : k - n ≤ min k m + 1 := by omega
    set N := ((prodTerms P.degrees Q.degrees).drop (indices.length + 1)).prod with hN
    obtain ⟨w1, w2, w3, w4, w5, w6⟩ := loopFrom_ok (P := fun i R' => R'.degrees = R.degrees ∧ R'.ncp = R.ncp ∧ R'.offsets = R.offsets ∧
      R'.cps.length = R.cps.length ∧ (∀ i, i ≠ f → R'.cps[i]? = R.cps[i]?) ∧ ∀ x, R'.cps[f]? = some x → G (j + (i - (k - n)) * N) x) hab h
      ⟨rfl, rfl, rfl, rfl, fun _ _ => rfl, by simpa using hx⟩ (by
        rintro i hi1 hi2 S S' ⟨w1, w2, w3, w4, w5, w6⟩ hS
        obtain ⟨c1, -, hS⟩ := bind_eq_ok.mp hS
        obtain ⟨c2, -, hS⟩ := bind_eq_ok.mp hS
        obtain ⟨c3, h3, hS⟩ := bind_eq_ok.mp hS
        have hc3 : 0 < c3 := by
          have hlt : m + n < cfg.maxBinom := by
            by_contra hlt
            rw [choose_assert (by omega)] at h3; cases h3
          rw [choose_ok hc hlt hkmn] at h3
          cases h3
          exact Nat.choose_pos hkmn
        have hf' : S.globalToLocal ks = .ok f := by
          rw [← hf]; unfold globalToLocal dim; rw [w1, w3]
        obtain ⟨v1, v2, v3, v4, v5, v6⟩ := ih (indices := indices ++ [i]) (by simp; omega)
          (by rw [List.length_append]; exact hF _ _ _ hfac (hL _ _ hc3)) hf' w6 hS
        refine ⟨v1.trans w1, v2.trans w2, v3.trans w3, v4.trans w4, fun i hi => (v5 i hi).trans (w5 i hi), fun x hx => ?_⟩
        have := v6 x hx
        rw [show (indices ++ [i]).length = indices.length + 1 by simp, ← hN] at this
        rw [show i + 1 - (k - n) = i - (k - n) + 1 by omega, Nat.add_mul, Nat.one_mul, ← Nat.add_assoc]
        exact this)
    refine ⟨w1, w2, w3, w4, w5, fun x hx => hle ?_ (w6 x hx)⟩
    rw [prodTerms_drop e2 e3, ← hN]
    exact Nat.add_le_add_left (Nat.mul_le_mul_right _ (by omega)) _

theorem mulOp_graded {cfg : Cfg} (hc : cfg.Ok) {mul : V → W → U} {P : Spline V} {Q : Spline W} {R : Spline U}
    {L : K → Prop} {F : ℕ → K → Prop} {T : U → Prop} {G : ℕ → U → Prop}
    (hL : ∀ c d : ℕ, 0 < d → L ((c : K) / (d : K))) (hF0 : F 0 1) (hF : ∀ j a b, F j a → L b → F (j + 1) (a * b))
    (hT : ∀ a l x y, F (P.dim - 1) a → L l → x ∈ P.cps → y ∈ Q.cps → T (l • (a • mul x y)))
    (hG0 : G 0 0) (hG : ∀ j x t, G j x → T t → G (j + 1) (x + t)) (hmono : ∀ j x, G j x → G (j + 1) x)
    (hP : 0 < P.dim) (hdim : Q.dim = P.dim) (h : mulOp K cfg mul P Q = .ok R) :
    ∀ x ∈ R.cps, G (prodTerms P.degrees Q.degrees).prod x := by
  unfold mulOp at h
  obtain ⟨ds, h1, h⟩ := bind_eq_ok.mp h
  obtain ⟨hdl, hds⟩ := loop_ok (P := fun j (l : List ℕ) => l.length = P.dim ∧
      ∀ d < j, ∀ m n : ℕ, P.degrees[d]? = some m → Q.degrees[d]? = some n → l[d]? = some (m + n)) h1
    ⟨by simp, fun d hd => by omega⟩ (by
      rintro j hj l l' ⟨hl, hl'⟩ hw
      obtain ⟨p, e1, hw⟩ := bind_eq_ok.mp hw
      obtain ⟨q, e2, hw⟩ := bind_eq_ok.mp hw
      rw [wr_ok _ (by omega)] at hw
      cases hw
      rw [rd_ok_iff] at e1 e2
      refine ⟨by simpa using hl, fun d hd m n hm hn => ?_⟩
      by_cases hdj : d = j
      · subst hdj
        rw [e1] at hm; rw [e2] at hn
        cases hm; cases hn
        rw [List.getElem?_set_self (by omega)]
      · rw [List.getElem?_set_ne (by omega)]; exact hl' d (by omega) m n hm hn)
  obtain ⟨r0, e1, e2, e3, e4⟩ := ofDegrees_ok (V := U) (ps := ds) (by omega)
  rw [e1] at h
  simp only [bind_ok] at h
  obtain ⟨w1, w2, w3, w4⟩ := loop_ok (P := fun k (S : Spline U) => S.WF ∧ S.degrees = ds ∧
      (∀ i x, i < k → S.cps[i]? = some x → G (prodTerms P.degrees Q.degrees).prod x) ∧
      ∀ i x, k ≤ i → S.cps[i]? = some x → x = 0) h
    ⟨e2, e3, fun i x hi => by omega, fun i x _ hx => by
      rw [e4] at hx
      have := List.mem_of_getElem? hx
      simp [tab] at this
      exact this.2⟩ (by
      rintro k hk S S' ⟨w1, w2, w3, w4⟩ hS
      rw [localToGlobal_ok w1] at hS
      simp only [bind_ok] at hS
      have hk' : k < size ds := by rw [e2.ncp_eq, e3] at hk; exact hk
      have hv : ValidIdx S.degrees (unflat S.degrees k) := unflat_valid _ _
      have hfl : S.globalToLocal (unflat S.degrees k) = .ok k := by
        rw [globalToLocal_ok w1 hv.length, flatIndex_unflat (by rw [w2]; exact hk')]
      obtain ⟨v1, v2, v3, v4, v5, v6⟩ := combineForProduct_graded hc hL hF hT hG hmono (by
        intro d k m n e1 e2 e3
        have hd : d < P.dim := (List.getElem?_eq_some_iff.mp e2).1
        exact (validIdx_iff.mp hv).2 d k (m + n) e1 (by rw [w2]; exact hds d hd m n e2 e3)) (P.dim - 1) (indices := []) (by simp) hF0 hfl
        (j := 0) (fun x hx => by rw [w4 k x le_rfl hx]; exact hG0) hS
      refine ⟨⟨by rw [v1]; exact w1.dim_pos, by rw [v2, v1]; exact w1.ncp_eq, by rw [v3, v1]; exact w1.offsets_eq,
        by rw [v4, v1]; exact w1.cps_len⟩, v1.trans w2, fun i x hi hx => ?_, fun i x hi hx => ?_⟩
      · by_cases hik : i = k
        · subst hik; simpa using v6 x hx
        · rw [v5 i hik] at hx; exact w3 i x (by omega) hx
      · rw [v5 i (by omega)] at hx; exact w4 i x (by omega) hx)
  intro x hx
  obtain ⟨i, hi⟩ := List.mem_iff_getElem?.mp hx
  refine w3 i x ?_ hi
  have := (List.getElem?_eq_some_iff.mp hi).1
  rw [w1.cps_len, w2] at this
  rw [e2.ncp_eq, e3]; exact this

end Spline
end Bezman
