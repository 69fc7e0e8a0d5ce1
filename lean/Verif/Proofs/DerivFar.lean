import Verif.Proofs.DerivAbove

/-! Derivative splines for an order two or more above the degree: the number of control
points wraps around to a huge number, and the loop leaves the array. -/

namespace Bezman
open Spec Finset

/-- the call returns or has undefined behaviour, and nothing else -/
def UbOnly {α : Type} (x : M α) : Prop := ∀ e, x = .error e → e = .ub

section
variable {α β σ : Type}

theorem UbOnly.ok (a : α) : UbOnly (.ok a : M α) := fun _ h => by cases h

theorem UbOnly.pure (a : α) : UbOnly (Pure.pure a : M α) := UbOnly.ok a

theorem UbOnly.bind {x : M α} {f : α → M β} (hx : UbOnly x) (hf : ∀ a, x = .ok a → UbOnly (f a)) : UbOnly (x >>= f) := by
  cases x with
  | ok a => exact hf a rfl
  | error e => intro e' h; injection h with h; rw [← h]; exact hx e rfl

theorem UbOnly.rd (l : List α) (i : ℕ) : UbOnly (Bezman.rd l i) := by
  intro e h; unfold Bezman.rd at h
  cases hl : l[i]? <;> rw [hl] at h <;> simp at h; exact h.symm

theorem UbOnly.wr (l : List α) (i : ℕ) (x : α) : UbOnly (Bezman.wr l i x) := by
  intro e h; unfold Bezman.wr at h
  split at h <;> simp at h; exact h.symm

theorem UbOnly.divU (a b : ℕ) : UbOnly (Bezman.divU a b) := by
  intro e h; unfold Bezman.divU at h
  split at h <;> simp at h; exact h.symm

theorem UbOnly.modU (a b : ℕ) : UbOnly (Bezman.modU a b) := by
  intro e h; unfold Bezman.modU at h
  split at h <;> simp at h; exact h.symm

theorem UbOnly.loop {n : ℕ} {f : ℕ → σ → M σ} (h : ∀ k, k < n → ∀ s, UbOnly (f k s)) (s : σ) : UbOnly (Bezman.loop n f s) := by
  induction n with
  | zero => exact UbOnly.ok s
  | succ n ih => exact (ih fun k hk => h k (by omega)).bind fun a _ => h n (by omega) a

theorem UbOnly.loopFrom {a b : ℕ} {f : ℕ → σ → M σ} (h : ∀ k, a ≤ k → k < b → ∀ s, UbOnly (f k s)) (s : σ) :
    UbOnly (Bezman.loopFrom a b f s) :=
  UbOnly.loop (fun k hk => h (a + k) (by omega) (by omega)) s

theorem UbOnly.eq {x : M α} (h : UbOnly x) (h' : ∀ a, x ≠ .ok a) : x = .error .ub := by
  cases x with
  | ok a => exact absurd rfl (h' a)
  | error e => rw [h e rfl]

/-- a loop that returns has run every round -/
theorem loop_ok_round {n : ℕ} {f : ℕ → σ → M σ} {P : σ → Prop} {s r : σ} (h : loop n f s = .ok r) (h0 : P s)
    (hP : ∀ k s s', P s → f k s = .ok s' → P s') : P r ∧ ∀ i, i < n → ∃ t t', P t ∧ f i t = .ok t' := by
  induction n generalizing r with
  | zero => cases h; exact ⟨h0, fun i hi => by omega⟩
  | succ n ih =>
    obtain ⟨a, h1, h2⟩ := bind_eq_ok.mp h
    obtain ⟨i1, i2⟩ := ih h1
    refine ⟨hP n a r i1 h2, fun i hi => ?_⟩
    by_cases hin : i = n
    · subst hin; exact ⟨a, r, i1, h2⟩
    · exact i2 i (by omega)

/-- and its first round started in the first state -/
theorem loop_ok_first {n : ℕ} {f : ℕ → σ → M σ} {s r : σ} (hn : 0 < n) (h : loop n f s = .ok r) : ∃ t, f 0 s = .ok t := by
  induction n generalizing r with
  | zero => omega
  | succ n ih =>
    obtain ⟨a, h1, h2⟩ := bind_eq_ok.mp h
    cases n with
    | zero => cases h1; exact ⟨r, h2⟩
    | succ n => exact ih (by omega) h1

theorem wr_ok_length {l l' : List α} {i : ℕ} {x : α} (h : wr l i x = .ok l') : l'.length = l.length := by
  unfold wr at h
  split at h
  · cases h; simp
  · cases h

theorem rd_ok_lt {l : List α} {i : ℕ} {x : α} (h : rd l i = .ok x) : i < l.length := by
  unfold rd at h
  cases hl : l[i]? with
  | none => rw [hl] at h; cases h
  | some y => exact (List.getElem?_eq_some_iff.mp hl).1

end

namespace Spline
variable {K V : Type} [Field K] [AddCommGroup V] [Module K V] {s : Spline V}

theorem count64_mod {nd : List ℕ} (h : ∀ x ∈ nd, x + 1 < 2 ^ 64) : count64 nd = size nd % 2 ^ 64 := by
  have key : ∀ (l : List ℕ) (n : ℕ), (∀ x ∈ l, x + 1 < 2 ^ 64) → n < 2 ^ 64 →
      l.foldl (fun n d => mul64 n (add64 d 1)) n = (n * size l) % 2 ^ 64 := by
    intro l
    induction l with
    | nil => intro n _ hn; rw [List.foldl_nil, size_nil, mul_one, Nat.mod_eq_of_lt hn]
    | cons x l ih =>
      intro n hl hn
      rw [List.foldl_cons, ih (mul64 n (add64 x 1)) (fun y hy => hl y (by simp [hy])) (Nat.mod_lt _ (by norm_num)),
        add64_ok (hl x (by simp)), size_cons]
      unfold mul64
      rw [Nat.mod_mul_mod, mul_assoc]
  unfold count64
  rw [key nd 1 h (by norm_num), one_mul]

omit [AddCommGroup V] [Module K V] [Field K] in
theorem globalIdWith_ub (nd : List ℕ) (n : ℕ) : UbOnly (globalIdWith nd n) := by
  unfold globalIdWith
  refine (UbOnly.rd _ _).bind fun _ _ => (UbOnly.modU _ _).bind fun _ _ => (UbOnly.wr _ _ _).bind fun _ _ =>
    UbOnly.bind (UbOnly.loopFrom (fun k _ _ r => ?_) _) fun _ _ => UbOnly.pure _
  exact (UbOnly.rd _ _).bind fun _ _ => (UbOnly.divU _ _).bind fun _ _ => (UbOnly.rd _ _).bind fun _ _ =>
    (UbOnly.modU _ _).bind fun _ _ => (UbOnly.wr _ _ _).bind fun _ _ => UbOnly.pure _

omit [AddCommGroup V] [Module K V] [Field K] in
theorem globalToLocal_ub (s : Spline V) (idx : List ℕ) : UbOnly (s.globalToLocal idx) := by
  unfold globalToLocal
  refine (UbOnly.rd _ _).bind fun _ _ => UbOnly.loopFrom (fun k _ _ r => ?_) _
  exact (UbOnly.rd _ _).bind fun _ _ => (UbOnly.rd _ _).bind fun _ _ => UbOnly.pure _

theorem derivStep_ub {cfg : Cfg} (hc : cfg.Ok) {orders : List ℕ} (d : ℕ) (hmax : ∀ o, orders[d]? = some o → o < cfg.maxBinom)
    (r : List ℕ × List V) : UbOnly (derivStep K cfg s orders d r) := by
  unfold derivStep
  refine (UbOnly.rd _ _).bind fun o ho => ?_
  have ho' : orders[d]? = some o := by
    have := rd_ok_lt ho
    rw [rd_getElem this] at ho; injection ho with ho
    rw [List.getElem?_eq_getElem this, ho]
  split
  · exact UbOnly.pure _
  · refine (UbOnly.rd _ _).bind fun _ _ => (UbOnly.wr _ _ _).bind fun _ _ => (UbOnly.rd _ _).bind fun _ _ =>
      UbOnly.bind (UbOnly.loopFrom (fun k _ _ r => UbOnly.pure _) _) fun _ _ =>
      UbOnly.bind (UbOnly.loop (fun k _ r => ?_) _) fun _ _ => UbOnly.pure _
    refine (globalIdWith_ub _ _).bind fun _ _ => (globalToLocal_ub _ _).bind fun _ _ =>
      UbOnly.bind (UbOnly.loopFrom (fun k _ hk r => ?_) _) fun _ _ => (UbOnly.rd _ _).bind fun _ _ => UbOnly.wr _ _ _
    refine (UbOnly.rd _ _).bind fun _ _ => (UbOnly.wr _ _ _).bind fun _ _ => UbOnly.bind ?_ fun _ _ =>
      (UbOnly.rd _ _).bind fun _ _ => (globalToLocal_ub _ _).bind fun _ _ => (UbOnly.rd _ _).bind fun _ _ =>
      (UbOnly.wr _ _ _).bind fun _ _ => UbOnly.pure _
    rw [choose_ok hc (hmax o ho') (by omega)]
    exact UbOnly.ok _

/-- the round of a direction whose order exceeds the degree by at least two -/
theorem deriv_step_far {cfg : Cfg} (h : s.WF) {orders : List ℕ} {d o p : ℕ} {r : List ℕ × List V}
    (ho : orders[d]? = some o) (hp : s.degrees[d]? = some p) (hgt : p + 1 < o) (hsz : size s.degrees * o < 2 ^ 64)
    (hv : ValidIdx s.degrees r.1) (hn : r.1[d]? = some p) (hl : r.2.length = size s.degrees) :
    ∀ r', derivStep K cfg s orders d r ≠ .ok r' := by
  intro r' hr
  obtain ⟨hd, hpd⟩ := List.getElem?_eq_some_iff.mp hp
  have hsp := list_split hp
  have hrs := list_split hn
  set l := s.degrees.take d with hldef
  set g := s.degrees.drop (d + 1) with hgdef
  set l' := r.1.take d with hl'def
  set g' := r.1.drop (d + 1) with hg'def
  have hrl : r.1.length = s.degrees.length := hv.length
  have hll : l'.length = l.length := by simp [hl'def, hldef, hrl]
  have hv' := hv
  rw [hsp, hrs] at hv'
  rw [validIdx_append hll] at hv'
  obtain ⟨v1, v2⟩ := hv'
  have v3 := (validIdx_cons.mp v2).2
  have s1 := size_le_of_valid v1
  have s2 := size_le_of_valid v3
  have p1 := size_pos l'
  have p2 := size_pos g'
  have hsd : size s.degrees = size l * ((p + 1) * size g) := by
    conv_lhs => rw [hsp]
    rw [size_append, size_cons]
  have ho64 : o < 2 ^ 64 := lt_of_le_of_lt (Nat.le_mul_of_pos_left _ (size_pos _)) hsz
  set k := o - p - 1 with hk
  have hk0 : 0 < k := by omega
  have hsub : sub64 p o = 2 ^ 64 - k - 1 := by
    unfold sub64
    rw [Nat.mod_eq_of_lt ho64, Nat.mod_eq_of_lt (by omega)]; omega
  set nd := r.1.set d (sub64 p o) with hnd
  have hnds : nd = l' ++ (2 ^ 64 - k - 1) :: g' := by rw [hnd, set_split hn, hsub]
  have hsmall : ∀ x ∈ s.degrees, x + 1 < 2 ^ 64 := by
    intro x hx
    have h1 := lt_size_of_mem hx
    have : size s.degrees * 2 ≤ size s.degrees * o := Nat.mul_le_mul_left _ (by omega)
    have := size_pos s.degrees
    omega
  have hle : ∀ (ps qs : List ℕ), ValidIdx ps qs → (∀ x ∈ ps, x + 1 < 2 ^ 64) → ∀ x ∈ qs, x + 1 < 2 ^ 64 := by
    intro ps qs hv hps x hx
    obtain ⟨i, hi, rfl⟩ := List.mem_iff_getElem.mp hx
    have hi' : i < ps.length := by rw [← hv.length]; exact hi
    have := (validIdx_iff.mp hv).2 i qs[i] ps[i] (List.getElem?_eq_getElem hi) (List.getElem?_eq_getElem hi')
    have := hps _ (List.getElem_mem hi')
    omega
  have hnd64 : ∀ x ∈ nd, x + 1 < 2 ^ 64 := by
    intro x hx
    rw [hnds] at hx
    rcases List.mem_append.mp hx with hx | hx
    · exact hle _ _ v1 (fun y hy => hsmall y (List.mem_of_mem_take hy)) x hx
    · rcases List.mem_cons.mp hx with rfl | hx
      · omega
      · exact hle _ _ v3 (fun y hy => hsmall y (List.mem_of_mem_drop hy)) x hx
  -- the number of rounds
  set S := size l' * size g' with hS
  have hS0 : 0 < S := Nat.mul_pos p1 p2
  have hS1 : S ≤ size l * size g := Nat.mul_le_mul s1 s2
  have hA : size s.degrees = size l * size g * (p + 1) := by rw [hsd]; ring
  have hbig : S * (p + 1) + S * k < 2 ^ 64 ∧ size s.degrees + S * k < 2 ^ 64 := by
    have e : size l * size g * (p + 1) + size l * size g * k = size l * size g * o := by
      rw [← mul_add]; congr 1; omega
    have e2 : size l * size g * o ≤ size s.degrees * o := by
      rw [hA]; exact Nat.mul_le_mul_right _ (Nat.le_mul_of_pos_right _ (by omega))
    have e3 : S * (p + 1) ≤ size l * size g * (p + 1) := Nat.mul_le_mul_right _ hS1
    have e4 : S * k ≤ size l * size g * k := Nat.mul_le_mul_right _ hS1
    omega
  have hcount : count64 nd = 2 ^ 64 - S * k := by
    rw [count64_mod hnd64, hnds, size_append, size_cons,
      show 2 ^ 64 - k - 1 + 1 = 2 ^ 64 - k by omega]
    have e : size l' * ((2 ^ 64 - k) * size g') = 2 ^ 64 * (S - 1) + (2 ^ 64 - S * k) := by
      have hk64 : k ≤ 2 ^ 64 := by omega
      have : S * k ≤ 2 ^ 64 := by omega
      zify [hk64, this, hS0]
      push_cast [hS]
      ring
    rw [e, Nat.mul_add_mod, Nat.mod_eq_of_lt]
    have : 0 < S * k := Nat.mul_pos hS0 hk0
    omega
  -- a round that leaves the array
  set c := (p + 1) * size g with hc
  set mi := List.replicate l'.length 0 ++ c :: List.replicate g'.length 0 with hmi
  have hc1 : c ≤ 2 ^ 64 - k - 1 := by
    have h1 : c ≤ size s.degrees := by rw [hsd]; exact Nat.le_mul_of_pos_left _ (size_pos _)
    have h2 : k ≤ S * k := Nat.le_mul_of_pos_left _ hS0
    omega
  have hz : ∀ ps : List ℕ, ValidIdx ps (List.replicate ps.length 0) ∧ flatIndex ps (List.replicate ps.length 0) = 0 := by
    intro ps
    induction ps with
    | nil => simp [flatIndex]
    | cons x ps ih => simp [List.replicate_succ, flatIndex, ih.1, ih.2]
  have hmv : ValidIdx nd mi := by
    rw [hnds, hmi, validIdx_append (by simp)]
    exact ⟨(hz l').1, validIdx_cons.mpr ⟨hc1, (hz g').1⟩⟩
  have hgl : g'.length = g.length := by simp [hg'def, hgdef, hrl]
  have hf1 : flatIndex nd mi = size l' * c := by
    rw [hnds, hmi, flatIndex_append (by simp), (hz l').2]
    simp [flatIndex, (hz g').2]
  have hf2 : flatIndex s.degrees mi = size s.degrees := by
    conv_lhs => rw [hsp]
    rw [hmi, flatIndex_append (by simp [hll]), hll, hgl, (hz l).2, hsd]
    simp [flatIndex, (hz g).2, hc]
  have hround : flatIndex nd mi < count64 nd := by
    have : size l' * c ≤ size s.degrees := by rw [hsd]; exact Nat.mul_le_mul_right _ s1
    rw [hf1, hcount]; omega
  unfold derivStep at hr
  rw [rd_ok ho] at hr
  simp only [bind_ok] at hr
  rw [if_neg (by omega), rd_ok hn] at hr
  simp only [bind_ok] at hr
  rw [wr_ok _ (by rw [hrl]; exact hd)] at hr
  simp only [bind_ok] at hr
  obtain ⟨_, _, hr⟩ := bind_eq_ok.mp hr
  obtain ⟨f, _, hr⟩ := bind_eq_ok.mp hr
  obtain ⟨pts, hr, _⟩ := bind_eq_ok.mp hr
  obtain ⟨_, hrounds⟩ := loop_ok_round (P := fun pts : List V => pts.length = size s.degrees) hr hl (by
    intro i pts pts' hpts hi
    obtain ⟨_, _, hi⟩ := bind_eq_ok.mp hi
    obtain ⟨ix, _, hi⟩ := bind_eq_ok.mp hi
    obtain ⟨q, hq, hi⟩ := bind_eq_ok.mp hi
    obtain ⟨x, hx, hi⟩ := bind_eq_ok.mp hi
    rw [wr_ok_length hi]
    refine (loop_ok_round (P := fun q : List ℕ × List V => q.2.length = size s.degrees) hq hpts ?_).1
    intro j q q' hq hj
    obtain ⟨_, _, hj⟩ := bind_eq_ok.mp hj
    obtain ⟨_, _, hj⟩ := bind_eq_ok.mp hj
    obtain ⟨_, _, hj⟩ := bind_eq_ok.mp hj
    obtain ⟨_, _, hj⟩ := bind_eq_ok.mp hj
    obtain ⟨_, _, hj⟩ := bind_eq_ok.mp hj
    obtain ⟨_, _, hj⟩ := bind_eq_ok.mp hj
    obtain ⟨w, hw, hj⟩ := bind_eq_ok.mp hj
    cases hj
    show w.length = _
    rw [wr_ok_length hw, hq])
  obtain ⟨t, t', ht, hbody⟩ := hrounds _ hround
  have hpos : 0 < nd.length := by simp [hnds]
  rw [globalIdWith_any hpos hnd64, unflat_flatIndex hmv] at hbody
  simp only [bind_ok] at hbody
  rw [globalToLocal_ok h (by rw [hmv.length]; simp [hnd, hrl, Spline.dim]), hf2] at hbody
  simp only [bind_ok] at hbody
  obtain ⟨q, hq, _⟩ := bind_eq_ok.mp hbody
  obtain ⟨_, hfirst⟩ := loop_ok_first (by omega) hq
  obtain ⟨_, _, hfirst⟩ := bind_eq_ok.mp hfirst
  obtain ⟨_, _, hfirst⟩ := bind_eq_ok.mp hfirst
  obtain ⟨_, _, hfirst⟩ := bind_eq_ok.mp hfirst
  obtain ⟨x, hx, _⟩ := bind_eq_ok.mp hfirst
  have := rd_ok_lt hx
  simp only at this
  omega

/-- If the first order above its degree exceeds it by two or more, the call has undefined behaviour. -/
theorem derivativeSpline_far {cfg : Cfg} (hc : cfg.Ok) (h : s.WF) {orders : List ℕ} (hl : orders.length = s.dim)
    {d o p : ℕ} (hp : s.degrees[d]? = some p) (ho : orders[d]? = some o) (hgt : p + 1 < o)
    (hle : ∀ (e o q : ℕ), e < d → orders[e]? = some o → s.degrees[e]? = some q → o ≤ q)
    (hmax : ∀ (e o : ℕ), e ≤ d → orders[e]? = some o → o < cfg.maxBinom) (hsz : size s.degrees * o < 2 ^ 64) :
    derivativeSpline K cfg s orders = .error .ub := by
  have hl' : orders.length = s.degrees.length := hl
  obtain ⟨hd, _⟩ := List.getElem?_eq_some_iff.mp hp
  have hsz' : size s.degrees < 2 ^ 64 := lt_of_le_of_lt (Nat.le_mul_of_pos_right _ (by omega)) hsz
  obtain ⟨r, h1, h2⟩ := loop_inv (n := d) (s := (s.degrees, s.cps)) (f := derivStep K cfg s orders)
    (P := fun k r => DerivInv (K := K) s orders k r)
    ⟨by simp [doneDegrees], fun i => s.cps.getD i 0, h.cps_tab, by
        intro t ht
        simp only [restOrders, Nat.zero_min, List.replicate_zero, List.nil_append, List.drop_zero]
        exact mt_tens _ _ (fun n => s.cps.getD n 0)⟩
    (fun k hk r hr => deriv_step hc h hl (by unfold dim; omega) (fun o q => hle k o q hk)
      (fun o => hmax k o (by omega)) hsz' hr)
  have h3 : derivStep K cfg s orders d r = .error .ub := by
    refine (derivStep_ub hc d (fun o => hmax d o le_rfl) r).eq ?_
    obtain ⟨e, G, hG, _⟩ := h2
    refine deriv_step_far h ho hp hgt hsz (by rw [e]; exact doneDegrees_valid hl' d) ?_ (by rw [hG]; simp)
    rw [e, doneDegrees_getElem? hl' hp ho, if_neg (by omega)]
  have h4 : ∀ m, loop (d + 1 + m) (derivStep K cfg s orders) (s.degrees, s.cps) = .error .ub := by
    intro m
    induction m with
    | zero => rw [Nat.add_zero, loop_succ, h1]; exact h3
    | succ m ih => rw [← Nat.add_assoc, loop_succ, ih]; rfl
  have h5 := h4 (s.dim - (d + 1))
  rw [show d + 1 + (s.dim - (d + 1)) = s.dim by unfold dim; omega] at h5
  unfold derivativeSpline
  unfold derivStep at h5
  rw [h5]
  rfl

end Spline
end Bezman
