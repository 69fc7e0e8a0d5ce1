import Verif.Proofs.Elevate
import Verif.Model.Arith

/-! Arithmetic of polynomial splines. -/

namespace Bezman
open Spec Finset

theorem size_mono {a b : List ℕ} (hl : a.length = b.length)
    (h : ∀ i x y : ℕ, a[i]? = some x → b[i]? = some y → x ≤ y) : size a ≤ size b := by
  induction a generalizing b with
  | nil => cases b <;> simp_all
  | cons x a ih =>
    cases b with
    | nil => simp at hl
    | cons y b =>
      rw [size_cons, size_cons]
      apply Nat.mul_le_mul
      · have := h 0 x y rfl rfl; omega
      · exact ih (by simpa using hl) (fun i x y hx hy => h (i + 1) x y (by simpa using hx) (by simpa using hy))

namespace Spline
variable {K V : Type}

theorem mapCps_ok {s : Spline V} (h : s.WF) (f : V → V) :
    s.mapCps f = .ok { s with cps := s.cps.map f } := by
  unfold mapCps
  obtain ⟨r, h1, h2, h3, h4⟩ := loop_inv (n := s.ncp) (s := s.cps)
    (f := fun i cps => do
      let x ← rd cps i
      wr cps i (f x))
    (P := fun k r => r.length = s.cps.length ∧
      (∀ i, i < k → r[i]? = (s.cps.map f)[i]?) ∧ (∀ i, k ≤ i → r[i]? = s.cps[i]?))
    ⟨rfl, fun i hi => by omega, fun i _ => rfl⟩
    (by
      rintro k hk r ⟨hr1, hr2, hr3⟩
      have hk' : k < s.cps.length := by rw [h.cps_len, ← h.ncp_eq]; exact hk
      rw [rd_ok ((hr3 k le_rfl).trans (List.getElem?_eq_getElem hk'))]
      simp only [bind_ok]
      refine ⟨_, wr_ok _ (by omega), by simp [hr1], ?_, ?_⟩
      · intro i hi
        by_cases hik : i = k
        · subst hik
          rw [List.getElem?_set_self (by omega)]; simp [hk']
        · rw [List.getElem?_set_ne (by omega)]; exact hr2 i (by omega)
      · intro i hi
        rw [List.getElem?_set_ne (by omega)]; exact hr3 i (by omega))
  rw [h1]
  simp only [bind_ok, pure_eq_ok]
  congr 2
  apply List.ext_getElem?
  intro i
  by_cases hi : i < s.ncp
  · exact h3 i hi
  · have : s.cps.length = s.ncp := by rw [h.cps_len, h.ncp_eq]
    rw [List.getElem?_eq_none (by omega), List.getElem?_eq_none (by simp; omega)]

theorem negOp_ok [Neg V] {s : Spline V} (h : s.WF) :
    s.negOp = .ok { s with cps := s.cps.map (fun x => -x) } := by
  have hlen : s.cps.length = s.ncp := by rw [h.cps_len, h.ncp_eq]
  unfold negOp
  obtain ⟨r, h1, h2, h3⟩ := loop_inv (n := s.ncp) (s := s.cps)
    (f := fun i cps => do
      let x ← rd s.cps i
      wr cps i (-x))
    (P := fun k r => r.length = s.cps.length ∧
      (∀ i, i < k → r[i]? = (s.cps.map (fun x => -x))[i]?))
    ⟨rfl, fun i hi => by omega⟩
    (by
      rintro k hk r ⟨hr1, hr2⟩
      have hk' : k < s.cps.length := by omega
      rw [rd_getElem hk']
      simp only [bind_ok]
      refine ⟨_, wr_ok _ (by omega), by simp [hr1], ?_⟩
      intro i hi
      by_cases hik : i = k
      · subst hik
        rw [List.getElem?_set_self (by omega)]; simp [hk']
      · rw [List.getElem?_set_ne (by omega)]; exact hr2 i (by omega))
  rw [h1]
  simp only [bind_ok, pure_eq_ok]
  congr 2
  apply List.ext_getElem?
  intro i
  by_cases hi : i < s.ncp
  · exact h3 i hi
  · rw [List.getElem?_eq_none (by omega), List.getElem?_eq_none (by simp; omega)]

theorem WF.map {s : Spline V} (h : s.WF) {W : Type} (f : V → W) :
    WF (⟨s.degrees, s.ncp, s.offsets, s.cps.map f⟩ : Spline W) :=
  ⟨h.dim_pos, h.ncp_eq, h.offsets_eq, by simp [h.cps_len]⟩

theorem zipCps_ok {n : ℕ} (f : V → V → V) (A B : ℕ → V) :
    zipCps n f (tab n A) (tab n B) = .ok (tab n (fun i => f (A i) (B i))) := by
  unfold zipCps
  obtain ⟨r, h1, h2⟩ := loop_inv (n := n) (s := tab n A)
    (f := fun i a => do
      let x ← rd a i
      let y ← rd (tab n B) i
      wr a i (f x y))
    (P := fun k r => r = tab n (fun i => if i < k then f (A i) (B i) else A i))
    (by apply tab_congr; intro i _; simp)
    (by
      rintro k hk _ rfl
      rw [rd_tab _ hk, rd_tab _ hk]
      simp only [bind_ok]
      refine ⟨_, wr_tab _ _ hk, ?_⟩
      apply tab_congr; intro i _
      by_cases hik : i = k
      · subst hik; simp
      · rw [Function.update_of_ne hik]
        by_cases h : i < k
        · rw [if_pos h, if_pos (by omega)]
        · rw [if_neg h, if_neg (by omega)])
  rw [h1, h2]
  congr 1
  apply tab_congr; intro i hi; rw [if_pos hi]

section value
variable [CommRing K] [AddCommGroup V] [Module K V]

theorem value_map {s : Spline V} (h : s.WF) {W : Type} [AddCommGroup W] [Module K W] (f : V → W) (t : List K) :
    value (⟨s.degrees, s.ncp, s.offsets, s.cps.map f⟩ : Spline W) t
      = neval s.degrees t (fun i => f (s.cps.getD i 0)) := by
  have : s.cps.map f = tab (size s.degrees) (fun i => f (s.cps.getD i 0)) := by
    conv_lhs => rw [h.cps_tab]
    simp [tab]
  exact value_of_tab this t

end value

section elevateTo
variable [Field K] [CharZero K] [AddCommGroup V] [Module K V]

/-- degree-wise maximum -/
def maxDeg (a b : List ℕ) : List ℕ := List.zipWith max a b

theorem maxDeg_length {a b : List ℕ} (h : b.length = a.length) : (maxDeg a b).length = a.length := by
  simp [maxDeg, h]

theorem maxDeg_getElem? {a b : List ℕ} {d x y : ℕ} (hx : a[d]? = some x) (hy : b[d]? = some y) :
    (maxDeg a b)[d]? = some (max x y) := by
  simp [maxDeg, List.getElem?_zipWith, hx, hy]

theorem maxDeg_comm (a b : List ℕ) : maxDeg a b = maxDeg b a := by
  unfold maxDeg
  induction a generalizing b with
  | nil => simp
  | cons x a ih => cases b <;> simp [ih, max_comm]

theorem maxDeg_assoc (a b c : List ℕ) : maxDeg (maxDeg a b) c = maxDeg a (maxDeg b c) := by
  unfold maxDeg
  induction a generalizing b c with
  | nil => simp
  | cons x a ih => cases b <;> cases c <;> simp [ih, max_assoc]

theorem maxDeg_self (a : List ℕ) : maxDeg a a = a := by
  unfold maxDeg
  induction a with
  | nil => simp
  | cons x a ih => simpa using ih

theorem maxDeg_left {a b : List ℕ} (h : b.length = a.length)
    (hle : ∀ d x y : ℕ, a[d]? = some x → b[d]? = some y → y ≤ x) : maxDeg a b = a := by
  apply List.ext_getElem?
  intro d
  by_cases hd : d < a.length
  · have hx := List.getElem?_eq_getElem hd
    have hy := List.getElem?_eq_getElem (show d < b.length by omega)
    rw [maxDeg_getElem? hx hy, hx, max_eq_left (hle d _ _ hx hy)]
  · rw [List.getElem?_eq_none (by rw [maxDeg_length h]; omega), List.getElem?_eq_none (by omega)]

theorem elevateTo_ok {cfg : Cfg} {s : Spline V} (h : s.WF) {target : List ℕ}
    (hl : target.length = s.dim) (hf : ∀ p ∈ target, p < cfg.fuel)
    (hf0 : 0 < cfg.fuel)
    (hs : size (maxDeg s.degrees target) < 2 ^ 31) :
    ∃ s', elevateTo K cfg s target = .ok s' ∧ s'.WF ∧ s'.degrees = maxDeg s.degrees target ∧
      ∀ t : List K, t.length = s.dim → s'.value t = s.value t := by
  unfold elevateTo
  obtain ⟨r, h1, hWF, hlen, hlo, hhi, hv⟩ := loop_inv (n := s.dim) (s := s)
    (f := fun d s =>
      whileM cfg.fuel (fun (s : Spline V) => do
        let t ← rd target d
        let p ← rd s.degrees d
        pure (decide (t > p))) (fun s => orderElevate K s d) s)
    (P := fun d r => r.WF ∧ r.degrees.length = s.dim ∧
      (∀ e, e < d → r.degrees[e]? = (maxDeg s.degrees target)[e]?) ∧
      (∀ e, d ≤ e → r.degrees[e]? = s.degrees[e]?) ∧
      ∀ t : List K, t.length = s.dim → r.value t = s.value t)
    ⟨h, rfl, fun e he => by omega, fun e _ => rfl, fun t _ => rfl⟩
    (by
      rintro d hd r ⟨hWF, hlen, hlo, hhi, hv⟩
      have hp : s.degrees[d]? = some s.degrees[d] := List.getElem?_eq_getElem hd
      have hT : target[d]? = some target[d] := List.getElem?_eq_getElem (by omega)
      set T := target[d] with hTdef
      have hTf : T < cfg.fuel := hf T (List.mem_of_getElem? hT)
      obtain ⟨r', hr1, ⟨x, hx0, hx1, hx2, hWF', hlen', hlo', hhi', hv'⟩, hr3⟩ := whileM_inv
        (c := fun (s : Spline V) => do
          let t ← rd target d
          let p ← rd s.degrees d
          pure (decide (t > p)))
        (f := fun s => orderElevate K s d)
        (P := fun r => ∃ x, r.degrees[d]? = some x ∧ s.degrees[d] ≤ x ∧ x ≤ max s.degrees[d] T ∧
          r.WF ∧ r.degrees.length = s.dim ∧
          (∀ e, e < d → r.degrees[e]? = (maxDeg s.degrees target)[e]?) ∧
          (∀ e, d + 1 ≤ e → r.degrees[e]? = s.degrees[e]?) ∧
          ∀ t : List K, t.length = s.dim → r.value t = s.value t)
        (m := fun r => T - r.degrees.getD d 0)
        (by
          rintro r ⟨x, hx0, hx1, hx2, hWF, hlen, hlo, hhi, hv⟩
          rw [rd_ok hT, rd_ok hx0]
          simp only [bind_ok, pure_eq_ok]
          by_cases hTx : T > x
          · right
            refine ⟨by simp [hTx], ?_⟩
            have hdr : d < r.degrees.length := by rw [hlen]; exact hd
            have hsz : size (r.degrees.set d (x + 1)) < 2 ^ 31 := by
              refine lt_of_le_of_lt (size_mono ?_ ?_) hs
              · rw [maxDeg_length hl, List.length_set]; exact hlen
              · intro e y z hy hz
                by_cases hed : e = d
                · subst hed
                  rw [List.getElem?_set_self hdr] at hy
                  rw [maxDeg_getElem? hp hT] at hz
                  simp at hy hz; omega
                · rw [List.getElem?_set_ne (by omega)] at hy
                  by_cases hed' : e < d
                  · rw [hlo e hed', hz] at hy; simp at hy; omega
                  · rw [hhi e (by omega)] at hy
                    have hes : e < s.degrees.length := (List.getElem?_eq_some_iff.mp hy).1
                    have hes' : e < target.length := by rw [hl]; exact hes
                    have hte : target[e]? = some target[e] := List.getElem?_eq_getElem hes'
                    rw [maxDeg_getElem? hy hte] at hz
                    simp at hz; omega
            obtain ⟨r', e1, e2, e3, e4⟩ := orderElevate_ok (K := K) hWF hx0 hsz
            refine ⟨r', e1, ⟨x + 1, ?_, by omega, by omega, e2, by simp [e3, hlen], ?_, ?_, ?_⟩, ?_⟩
            · rw [e3, List.getElem?_set_self hdr]
            · intro e he; rw [e3, List.getElem?_set_ne (by omega)]; exact hlo e he
            · intro e he; rw [e3, List.getElem?_set_ne (by omega)]; exact hhi e he
            · intro t ht; rw [e4 t (by rw [ht]; exact hlen.symm), hv t ht]
            · have w1 : r'.degrees.getD d 0 = x + 1 := by
                rw [List.getD_eq_getElem?_getD, e3, List.getElem?_set_self hdr]; rfl
              have w2 : r.degrees.getD d 0 = x := by
                rw [List.getD_eq_getElem?_getD, hx0]; rfl
              rw [w1, w2]; omega
          · left; simp [hTx])
        cfg.fuel r ⟨s.degrees[d], by rw [hhi d le_rfl]; exact hp, le_rfl, le_max_left _ _, hWF, hlen, hlo,
          fun e he => hhi e (by omega), hv⟩ (by omega)
      refine ⟨r', hr1, hWF', hlen', ?_, hhi', hv'⟩
      intro e he
      by_cases hed : e = d
      · subst hed
        rw [rd_ok hT, rd_ok hx0] at hr3
        simp at hr3
        rw [hx0, maxDeg_getElem? hp hT]
        congr 1; omega
      · exact hlo' e (by omega))
  refine ⟨r, h1, hWF, ?_, hv⟩
  apply List.ext_getElem?
  intro e
  by_cases he : e < s.dim
  · exact hlo e he
  · rw [List.getElem?_eq_none (by omega), List.getElem?_eq_none (by rw [maxDeg_length hl]; exact not_lt.mp he)]

theorem value_zip {a b : Spline V} (ha : a.WF) (hb : b.WF) (hd : b.degrees = a.degrees)
    (f : V → V → V) :
    ∃ c, zipCps a.ncp f a.cps b.cps = .ok c ∧ WF { a with cps := c } ∧
      ∀ t : List K, value { a with cps := c } t
        = neval a.degrees t (fun i => f (a.cps.getD i 0) (b.cps.getD i 0)) := by
  have hc := zipCps_ok (n := a.ncp) f (fun i => a.cps.getD i 0) (fun i => b.cps.getD i 0)
  have e1 : a.cps = tab a.ncp (fun i => a.cps.getD i 0) := by rw [ha.ncp_eq]; exact ha.cps_tab
  have e2 : b.cps = tab a.ncp (fun i => b.cps.getD i 0) := by
    rw [ha.ncp_eq, ← hd]; exact hb.cps_tab
  rw [← e1, ← e2] at hc
  refine ⟨_, hc, ⟨ha.dim_pos, ha.ncp_eq, ha.offsets_eq, by simp [ha.ncp_eq]⟩, ?_⟩
  intro t
  apply value_of_tab
  rw [ha.ncp_eq]

/-- everything the binary operators need to know about the operands -/
structure BinOk (cfg : Cfg) (s rhs : Spline V) : Prop where
  wf1 : s.WF
  wf2 : rhs.WF
  dims : rhs.dim = s.dim
  /-- enough rounds for every `while` loop -/
  fuel1 : ∀ p ∈ s.degrees, p < cfg.fuel
  fuel2 : ∀ p ∈ rhs.degrees, p < cfg.fuel
  fuel3 : 2 ≤ cfg.fuel
  /-- the result has fewer than `2^31` control points -/
  small : size (maxDeg s.degrees rhs.degrees) < 2 ^ 31

omit [AddCommGroup V] in
theorem BinOk.swap {cfg : Cfg} {s rhs : Spline V} (h : BinOk cfg s rhs) : BinOk cfg rhs s :=
  ⟨h.wf2, h.wf1, h.dims.symm, h.fuel2, h.fuel1, h.fuel3, by rw [maxDeg_comm]; exact h.small⟩

theorem addAssign_ok {cfg : Cfg} {s rhs : Spline V} (h : BinOk cfg s rhs) :
    ∃ r, addAssign K cfg s rhs = .ok r ∧ r.WF ∧ r.degrees = maxDeg s.degrees rhs.degrees ∧
      ∀ t : List K, t.length = s.dim → r.value t = s.value t + rhs.value t := by
  unfold addAssign
  obtain ⟨a, a1, a2, a3, a4⟩ := elevateTo_ok (K := K) h.wf1 h.dims h.fuel2 (by have := h.fuel3; omega) h.small
  rw [a1]
  simp only [bind_ok]
  have hmm : maxDeg rhs.degrees a.degrees = maxDeg s.degrees rhs.degrees := by
    rw [a3, maxDeg_comm, maxDeg_assoc, maxDeg_self]
  have hlen : (maxDeg s.degrees rhs.degrees).length = s.dim := maxDeg_length h.dims
  obtain ⟨b, b1, b2, b3, b4⟩ := elevateTo_ok (K := K) (cfg := cfg) h.wf2 (target := a.degrees)
    (by rw [a3, hlen, h.dims])
    (by
      intro p hp
      rw [a3] at hp
      obtain ⟨d, hd, rfl⟩ := List.mem_iff_getElem.mp hp
      simp only [maxDeg, List.getElem_zipWith]
      exact max_lt (h.fuel1 _ (List.getElem_mem _)) (h.fuel2 _ (List.getElem_mem _)))
    (by have := h.fuel3; omega) (by rw [hmm]; exact h.small)
  rw [b1]
  simp only [bind_ok]
  obtain ⟨c, c1, c2, c3⟩ := value_zip (K := K) a2 b2 (by rw [b3, hmm, a3]) (· + ·)
  rw [c1]
  refine ⟨_, rfl, c2, a3, ?_⟩
  intro t ht
  rw [c3, neval_add, ← value_eq_neval, ← a4 t ht, ← b4 t (by rw [ht, h.dims]), value_eq_neval b,
    b3, hmm, a3]

theorem subAssign_ok {cfg : Cfg} {s rhs : Spline V} (h : BinOk cfg s rhs) :
    ∃ r, subAssign K cfg s rhs = .ok r ∧ r.WF ∧ r.degrees = maxDeg s.degrees rhs.degrees ∧
      ∀ t : List K, t.length = s.dim → r.value t = s.value t - rhs.value t := by
  unfold subAssign
  obtain ⟨a, a1, a2, a3, a4⟩ := elevateTo_ok (K := K) h.wf1 h.dims h.fuel2 (by have := h.fuel3; omega) h.small
  rw [a1]
  simp only [bind_ok]
  have hmm : maxDeg rhs.degrees a.degrees = maxDeg s.degrees rhs.degrees := by
    rw [a3, maxDeg_comm, maxDeg_assoc, maxDeg_self]
  have hlen : (maxDeg s.degrees rhs.degrees).length = s.dim := maxDeg_length h.dims
  obtain ⟨b, b1, b2, b3, b4⟩ := elevateTo_ok (K := K) (cfg := cfg) h.wf2 (target := a.degrees)
    (by rw [a3, hlen, h.dims])
    (by
      intro p hp
      rw [a3] at hp
      obtain ⟨d, hd, rfl⟩ := List.mem_iff_getElem.mp hp
      simp only [maxDeg, List.getElem_zipWith]
      exact max_lt (h.fuel1 _ (List.getElem_mem _)) (h.fuel2 _ (List.getElem_mem _)))
    (by have := h.fuel3; omega) (by rw [hmm]; exact h.small)
  rw [b1]
  simp only [bind_ok]
  obtain ⟨c, c1, c2, c3⟩ := value_zip (K := K) a2 b2 (by rw [b3, hmm, a3]) (· - ·)
  rw [c1]
  refine ⟨_, rfl, c2, a3, ?_⟩
  intro t ht
  rw [c3, neval_sub, ← value_eq_neval, ← a4 t ht, ← b4 t (by rw [ht, h.dims]), value_eq_neval b,
    b3, hmm, a3]

theorem needsCopy_ok {a b : List ℕ} (h : b.length = a.length) :
    ∃ c : Bool, loop a.length (fun d (c : Bool) => do
      let p ← rd a d
      let q ← rd b d
      pure (c || decide (p > q))) false = .ok c ∧
      (c = false ↔ ∀ d x y : ℕ, a[d]? = some x → b[d]? = some y → x ≤ y) := by
  obtain ⟨c, h1, h2⟩ := loop_inv (n := a.length) (s := false)
    (f := fun d (c : Bool) => do
      let p ← rd a d
      let q ← rd b d
      pure (c || decide (p > q)))
    (P := fun k c => c = false ↔ ∀ d x y : ℕ, d < k → a[d]? = some x → b[d]? = some y → x ≤ y)
    (by simp)
    (by
      intro k hk c hc
      have hx := List.getElem?_eq_getElem hk
      have hy := List.getElem?_eq_getElem (show k < b.length by omega)
      rw [rd_ok hx, rd_ok hy]
      refine ⟨_, rfl, ?_⟩
      simp only [Bool.or_eq_false_iff, decide_eq_false_iff_not, hc]
      constructor
      · rintro ⟨h1, h2⟩ d x y hd hxd hyd
        by_cases hdk : d = k
        · subst hdk; rw [hx] at hxd; rw [hy] at hyd; simp at hxd hyd; omega
        · exact h1 d x y (by omega) hxd hyd
      · intro h1
        exact ⟨fun d x y hd => h1 d x y (by omega), by have := h1 k _ _ (by omega) hx hy; omega⟩)
  refine ⟨c, h1, h2.trans ⟨fun h d x y hx hy => h d x y ((List.getElem?_eq_some_iff.mp hx).1) hx hy,
    fun h d x y _ hx hy => h d x y hx hy⟩⟩

theorem addAux_step {cfg : Cfg} {s rhs : Spline V} (h : BinOk cfg s rhs) (depth : ℕ) :
    ∃ ret : Spline V, ret.WF ∧ ret.degrees = maxDeg s.degrees rhs.degrees ∧
      (∀ t : List K, t.length = s.dim → ret.value t = s.value t) ∧
      ((maxDeg s.degrees rhs.degrees = rhs.degrees →
          ∃ r, addAux K cfg (depth + 1) s rhs = .ok r ∧ r.WF ∧ r.degrees = maxDeg s.degrees rhs.degrees ∧
            ∀ t : List K, t.length = s.dim → r.value t = s.value t + rhs.value t) ∧
       (maxDeg s.degrees rhs.degrees ≠ rhs.degrees →
          addAux K cfg (depth + 1) s rhs = addAux K cfg depth rhs ret)) := by
  obtain ⟨a, a1, a2, a3, a4⟩ := elevateTo_ok (K := K) h.wf1 h.dims h.fuel2 (by have := h.fuel3; omega) h.small
  obtain ⟨c, hc1, hc2⟩ := needsCopy_ok (a := s.degrees) (b := rhs.degrees) h.dims
  have hiff : c = false ↔ maxDeg s.degrees rhs.degrees = rhs.degrees := by
    rw [hc2]
    constructor
    · intro hle
      rw [maxDeg_comm]
      exact maxDeg_left h.dims.symm (fun d x y hx hy => hle d y x hy hx)
    · intro he d x y hx hy
      have := maxDeg_getElem? hx hy
      rw [he, hy] at this
      simp at this; omega
  refine ⟨a, a2, a3, a4, ?_, ?_⟩
  · intro he
    have hcf := hiff.mpr he
    rw [addAux, ofPoints_self h.wf1]
    simp only [bind_ok]
    rw [show s.dim = s.degrees.length from rfl, hc1]
    simp only [bind_ok]
    rw [a1]
    simp only [bind_ok, hcf, Bool.not_false, if_true]
    obtain ⟨c, c1, c2, c3⟩ := value_zip (K := K) a2 h.wf2 (by rw [a3, he]) (· + ·)
    rw [c1]
    refine ⟨_, rfl, c2, a3, ?_⟩
    intro t ht
    rw [c3, neval_add, ← value_eq_neval, ← a4 t ht, value_eq_neval rhs, a3, he]
  · intro he
    have hct : c = true := by
      cases c with
      | true => rfl
      | false => exact absurd (hiff.mp rfl) he
    rw [addAux, ofPoints_self h.wf1]
    simp only [bind_ok]
    rw [show s.dim = s.degrees.length from rfl, hc1]
    simp only [bind_ok]
    rw [a1]
    simp [hct]

theorem addOp_ok {cfg : Cfg} {s rhs : Spline V} (h : BinOk cfg s rhs) :
    ∃ r, addOp K cfg s rhs = .ok r ∧ r.WF ∧ r.degrees = maxDeg s.degrees rhs.degrees ∧
      ∀ t : List K, t.length = s.dim → r.value t = s.value t + rhs.value t := by
  unfold addOp
  obtain ⟨n, hn⟩ : ∃ n, cfg.fuel = n + 2 := ⟨cfg.fuel - 2, by have := h.fuel3; omega⟩
  rw [hn]
  obtain ⟨a, a2, a3, a4, h1, h2⟩ := addAux_step (K := K) h (n + 1)
  by_cases he : maxDeg s.degrees rhs.degrees = rhs.degrees
  · exact h1 he
  · rw [h2 he]
    have hmm : maxDeg rhs.degrees a.degrees = maxDeg s.degrees rhs.degrees := by
      rw [a3, maxDeg_comm, maxDeg_assoc, maxDeg_self]
    have hdim : a.dim = s.dim := by unfold dim; rw [a3, maxDeg_length h.dims]
    have hb : BinOk cfg rhs a :=
      ⟨h.wf2, a2, by rw [hdim, h.dims], h.fuel2, by
        intro p hp
        rw [a3] at hp
        obtain ⟨d, hd, rfl⟩ := List.mem_iff_getElem.mp hp
        simp only [maxDeg, List.getElem_zipWith]
        exact max_lt (h.fuel1 _ (List.getElem_mem _)) (h.fuel2 _ (List.getElem_mem _)),
        h.fuel3, by rw [hmm]; exact h.small⟩
    obtain ⟨b, b2, b3, b4, g1, g2⟩ := addAux_step (K := K) hb n
    obtain ⟨r, r1, r2, r3, r4⟩ := g1 (by rw [hmm, a3])
    refine ⟨r, r1, r2, by rw [r3, hmm], ?_⟩
    intro t ht
    rw [r4 t (by rw [ht, h.dims]), a4 t ht, add_comm]

/-- `a - b` when `b` has no larger degree -/
theorem subOp_ok {cfg : Cfg} {s rhs : Spline V} (h : BinOk cfg s rhs)
    (hle : ∀ d x y : ℕ, s.degrees[d]? = some x → rhs.degrees[d]? = some y → y ≤ x) :
    ∃ r, subOp K cfg s rhs = .ok r ∧ r.WF ∧ r.degrees = maxDeg s.degrees rhs.degrees ∧
      ∀ t : List K, t.length = s.dim → r.value t = s.value t - rhs.value t := by
  have hm : maxDeg s.degrees rhs.degrees = s.degrees := maxDeg_left h.dims hle
  unfold subOp
  rw [ofPoints_self h.wf1]
  simp only [bind_ok]
  have hl : loop s.dim (fun d ret =>
      whileM cfg.fuel (fun (_ : Spline V) => do
        let q ← rd rhs.degrees d
        let p ← rd s.degrees d
        pure (decide (q > p))) (fun ret => orderElevate K ret d) ret) s = .ok s := by
    apply loop_eq (fun _ => s) rfl
    intro d hd
    have hx : s.degrees[d]? = some s.degrees[d] := List.getElem?_eq_getElem hd
    have hy := List.getElem?_eq_getElem (show d < rhs.degrees.length by have := h.dims; unfold dim at *; omega)
    apply whileM_false (by have := h.fuel3; omega)
    rw [rd_ok hx, rd_ok hy]
    have := hle d _ _ hx hy
    simp [this]
  rw [hl]
  simp only [bind_ok]
  obtain ⟨b, b1, b2, b3, b4⟩ := elevateTo_ok (K := K) (cfg := cfg) h.wf2 (target := s.degrees)
    h.dims.symm h.fuel1 (by have := h.fuel3; omega) (by rw [maxDeg_comm]; exact h.small)
  rw [b1]
  simp only [bind_ok]
  have hbd : b.degrees = s.degrees := by rw [b3, maxDeg_comm, hm]
  obtain ⟨c, c1, c2, c3⟩ := value_zip (K := K) h.wf1 b2 hbd (· - ·)
  rw [c1]
  refine ⟨_, rfl, c2, hm.symm, ?_⟩
  intro t ht
  rw [c3, neval_sub, ← value_eq_neval, ← b4 t (by rw [ht, h.dims]), value_eq_neval b, hbd]

end elevateTo

/-- `a - b` never returns when `b` has a larger degree somewhere: for any number of
rounds granted to the `while` loop the call fails, with `outOfFuel` if all
elevations succeed and with `narrowing` once the net gets too large. -/
theorem subOp_diverges [Field K] [AddCommGroup V] [Module K V] {cfg : Cfg} {s rhs : Spline V} {d x y : ℕ}
    (hd : s.degrees[d]? = some x) (hd' : rhs.degrees[d]? = some y) (hlt : x < y) :
    ∀ r, subOp K cfg s rhs ≠ .ok r := by
  intro r hr
  have hdd : d < s.dim := (List.getElem?_eq_some_iff.mp hd).1
  unfold subOp at hr
  -- any success would need the loop to pass dimension `d`
  have key : ∀ (fuel : ℕ) (ret r' : Spline V), whileM fuel (fun (_ : Spline V) => do
        let q ← rd rhs.degrees d
        let p ← rd s.degrees d
        pure (decide (q > p))) (fun ret => orderElevate K ret d) ret ≠ .ok r' := by
    intro fuel
    induction fuel with
    | zero => intro ret r' h; simp [whileM] at h
    | succ n ih =>
      intro ret r' h
      rw [rd_ok hd, rd_ok hd'] at h ih
      simp only [bind_ok, pure_eq_ok, gt_iff_lt, decide_eq_true hlt] at h ih
      rw [whileM] at h
      cases ho : orderElevate K ret d with
      | error e => rw [ho] at h; simp at h
      | ok a => rw [ho] at h; exact ih a r' h
  have key2 : ∀ (n : ℕ), d < n → ∀ ret r' : Spline V, loop n (fun d ret =>
      whileM cfg.fuel (fun (_ : Spline V) => do
        let q ← rd rhs.degrees d
        let p ← rd s.degrees d
        pure (decide (q > p))) (fun ret => orderElevate K ret d) ret) ret ≠ .ok r' := by
    intro n
    induction n with
    | zero => intro h; omega
    | succ n ih =>
      intro hn ret r' h
      rw [loop_succ] at h
      cases hl : loop n (fun d ret =>
        whileM cfg.fuel (fun (_ : Spline V) => do
          let q ← rd rhs.degrees d
          let p ← rd s.degrees d
          pure (decide (q > p))) (fun ret => orderElevate K ret d) ret) ret with
      | error e => rw [hl] at h; simp at h
      | ok a =>
        rw [hl] at h
        by_cases hdn : d = n
        · subst hdn; exact key _ _ _ h
        · exact ih (by omega) _ _ hl
  cases ho : ofPoints s.degrees s.cps with
  | error e => rw [ho] at hr; simp at hr
  | ok a =>
    rw [ho] at hr
    simp only [bind_ok] at hr
    cases hl : loop s.dim (fun d ret =>
        whileM cfg.fuel (fun (_ : Spline V) => do
          let q ← rd rhs.degrees d
          let p ← rd s.degrees d
          pure (decide (q > p))) (fun ret => orderElevate K ret d) ret) a with
    | error e => rw [hl] at hr; simp at hr
    | ok b => exact key2 _ hdd _ _ hl

end Spline
end Bezman
