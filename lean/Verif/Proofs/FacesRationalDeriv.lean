import Verif.Proofs.FacesRationalOps

set_option linter.unusedSectionVars false

/-! # Derivatives of rational patches that share a face -/

namespace Bezman
open Spec Props

namespace RSpline
variable {K V : Type} [Zero K] [One K] [Add K] [Sub K] [Mul K] [Neg K] [Div K] [NatCast K]
  [Zero V] [Add V] [Sub V] [Neg V] [SMul K V] {d : ℕ} {sa sb : Bool}

/-- the order of one round -/
def unitOrder (ds : List ℕ) (e : ℕ) : List ℕ := (List.replicate ds.length 0).set e 1

theorem unitOrder_le {ds : List ℕ} {e p : ℕ} (hd : ds[e]? = some p) (hp : 1 ≤ p) (i o q : ℕ) (ho : (unitOrder ds e)[i]? = some o)
    (hq : ds[i]? = some q) : o ≤ q := by
  unfold unitOrder at ho
  by_cases h : i = e
  · subst h
    rw [hd] at hq; cases hq
    rw [List.getElem?_set_self (by simpa using (List.getElem?_eq_some_iff.mp hd).1)] at ho
    cases ho; exact hp
  · rw [List.getElem?_set_ne (by omega)] at ho
    have := (List.mem_replicate.mp (List.mem_of_getElem? ho)).2
    omega

theorem unitOrder_mem {ds : List ℕ} {e o : ℕ} (ho : o ∈ unitOrder ds e) : o ≤ 1 := by
  rcases List.mem_or_eq_of_mem_set ho with h | h
  · rw [List.mem_replicate] at h; omega
  · omega

theorem sub_unitOrder {ds : List ℕ} {e p : ℕ} (hd : ds[e]? = some p) : List.zipWith (· - ·) ds (unitOrder ds e) = ds.set e (p - 1) := by
  obtain ⟨hdl, hdp⟩ := List.getElem?_eq_some_iff.mp hd
  unfold unitOrder
  apply List.ext_getElem (by simp)
  intro i h1 h2
  rw [List.getElem_zipWith, List.getElem_set, List.getElem_set]
  by_cases h : e = i
  · subst h; simp [hdp]
  · simp [h]

/-- the degrees before the elevation -/
def lowDegrees (ds : List ℕ) (e p : ℕ) : List ℕ := (ds.map (· * 2)).set e (p * 2 - 1)

theorem sumDegrees_low {ds : List ℕ} {e p : ℕ} (hd : ds[e]? = some p) (hp : 1 ≤ p) : sumDegrees (ds.set e (p - 1)) ds = lowDegrees ds e p := by
  obtain ⟨hdl, hdp⟩ := List.getElem?_eq_some_iff.mp hd
  unfold sumDegrees lowDegrees
  apply List.ext_getElem (by simp)
  intro i h1 h2
  rw [List.getElem_zipWith, List.getElem_set, List.getElem_set]
  by_cases h : e = i
  · subst h; simp [hdp]; omega
  · simp [h]; ring

theorem mem_low {ds : List ℕ} {e p q : ℕ} (hd : ds[e]? = some p) (hq : q ∈ lowDegrees ds e p) : ∃ p' ∈ ds, q ≤ p' * 2 := by
  rcases List.mem_or_eq_of_mem_set hq with h | h
  · obtain ⟨p', hp', rfl⟩ := List.mem_map.mp h
    exact ⟨p', hp', le_rfl⟩
  · exact ⟨p, List.mem_of_getElem? hd, by omega⟩

theorem low_modify {ds : List ℕ} {e p : ℕ} (hd : ds[e]? = some p) (hp : 1 ≤ p) : (lowDegrees ds e p).modify e (· + 1) = ds.map (· * 2) := by
  obtain ⟨hdl, hdp⟩ := List.getElem?_eq_some_iff.mp hd
  unfold lowDegrees
  apply List.ext_getElem (by simp)
  intro i h1 h2
  rw [List.getElem_modify, List.getElem_set]
  by_cases h : e = i
  · subst h; simp [hdp]; omega
  · simp [h]

theorem size_low {ds : List ℕ} {e p : ℕ} (hd : ds[e]? = some p) (hp : 1 ≤ p) : size (lowDegrees ds e p) ≤ size (ds.map (· * 2)) := by
  obtain ⟨hdl, hdp⟩ := List.getElem?_eq_some_iff.mp hd
  have h1 := size_le_sumDegrees (a := lowDegrees ds e p) (b := unitOrder ds e) (by simp [lowDegrees, unitOrder])
  have e : sumDegrees (lowDegrees ds e p) (unitOrder ds e) = ds.map (· * 2) := by
    unfold sumDegrees lowDegrees unitOrder
    apply List.ext_getElem (by simp)
    intro i h1 h2
    rw [List.getElem_zipWith, List.getElem_set, List.getElem_set]
    by_cases h : e = i
    · subst h; simp [hdp]; omega
    · simp [h]
  rwa [e] at h1

theorem sumDegrees_double (ds : List ℕ) : sumDegrees ds ds = ds.map (· * 2) := by
  unfold sumDegrees; rw [List.zipWith_self]; congr 1; funext x; ring

/-- what one round computes -/
structure Round (cfg : Cfg) (r : RSpline K V) (ds : List ℕ) (e p : ℕ) (r' : RSpline K V) where
  (du a b c : Spline V)
  dw : Spline K
  h1 : Spline.derivativeSpline K cfg r.num (unitOrder ds e) = .ok du
  h2 : mulWeight' cfg du r.wt = .ok a
  h3 : Spline.derivativeSpline K cfg r.wt (unitOrder ds e) = .ok dw
  h4 : mulWeight cfg dw r.num = .ok b
  h5 : Spline.subAssign K cfg a b = .ok c
  h6 : Spline.orderElevate K c e = .ok r'.num
  h7 : Spline.mulScalar cfg r.wt r.wt = .ok r'.wt
  s1 : HasShape (ds.set e (p - 1)) du
  s2 : HasShape (lowDegrees ds e p) a
  s3 : HasShape (ds.set e (p - 1)) dw
  s4 : HasShape (lowDegrees ds e p) b
  s5 : HasShape (lowDegrees ds e p) c
  s6 : HasRShape (ds.map (· * 2)) r'

theorem low_fits {cfg : Cfg} {ds : List ℕ} {e p : ℕ} (hd : ds[e]? = some p) (hp : 1 ≤ p) (hf : DerivFits cfg ds 1) :
    Fits cfg (lowDegrees ds e p) (lowDegrees ds e p) :=
  fits_self (fun q hq => by
    obtain ⟨p', hp', hle⟩ := mem_low hd hq
    have := hf.rounds p' hp'
    omega) hf.rounds2 (lt_of_le_of_lt (size_low hd hp) (by simpa using hf.small))

theorem low_degs {cfg : Cfg} {ds : List ℕ} {e p : ℕ} (hd : ds[e]? = some p) (hp : 1 ≤ p) (hf : DerivFits cfg ds 1) :
    ∀ q ∈ sumDegrees (ds.set e (p - 1)) ds, q < cfg.maxBinom := by
  rw [sumDegrees_low hd hp]
  intro q hq
  obtain ⟨p', hp', hle⟩ := mem_low hd hq
  have := hf.degs p' hp'
  omega

theorem double_degs {cfg : Cfg} {ds : List ℕ} (hf : DerivFits cfg ds 1) : ∀ q ∈ sumDegrees ds ds, q < cfg.maxBinom := by
  rw [sumDegrees_double]
  intro q hq
  obtain ⟨p', hp', rfl⟩ := List.mem_map.mp hq
  have := hf.degs p' hp'
  omega

theorem deriv_small {cfg : Cfg} {ds : List ℕ} (hf : DerivFits cfg ds 1) : size ds < 2 ^ 64 := by
  have h := size_le_sumDegrees (a := ds) (b := ds) rfl
  rw [sumDegrees_double] at h
  have h' : size (ds.map (· * 2)) < 2 ^ 31 := by simpa using hf.small
  omega

theorem deriv_max {cfg : Cfg} {ds : List ℕ} {e p : ℕ} (hd : ds[e]? = some p) (hp : 1 ≤ p) (hf : DerivFits cfg ds 1) :
    ∀ o ∈ unitOrder ds e, o < cfg.maxBinom := by
  intro o ho
  have := unitOrder_mem ho
  have := hf.degs p (List.mem_of_getElem? hd)
  omega

theorem derivativeStep_round {cfg : Cfg} (hc : cfg.Ok) {r r' : RSpline K V} {ds : List ℕ} {e p : ℕ} (h : HasRShape ds r) (hd : ds[e]? = some p)
    (hp : 1 ≤ p) (hf : DerivFits cfg ds 1) (hr : derivativeStep cfg r e = .ok r') : Nonempty (Round cfg r ds e p r') := by
  obtain ⟨hdl, hdp⟩ := List.getElem?_eq_some_iff.mp hd
  have hdim : r.dim = ds.length := by unfold dim Spline.dim; first | rw [h.1.2] | rw [h.2.2]
  unfold derivativeStep at hr
  rw [hdim, wr_ok _ (by simpa using hdl)] at hr
  simp only [bind_ok, bind_eq_ok] at hr
  obtain ⟨du, e1, a, e2, dw, e3, b, e4, c, e5, n, e6, w, e7, e8⟩ := hr
  obtain ⟨x, x1, s1⟩ := Spline.derivativeSpline_returns (K := K) cfg hc h.1 (orders := unitOrder ds e) (by simp [unitOrder]) (unitOrder_le hd hp)
    (deriv_max hd hp hf) (deriv_small hf)
  rw [sub_unitOrder hd] at s1
  have hdu : x = du := by
    have := x1.symm.trans e1
    exact Except.ok.inj this
  subst hdu
  obtain ⟨y, y1, s3⟩ := Spline.derivativeSpline_returns (K := K) cfg hc h.2 (orders := unitOrder ds e) (by simp [unitOrder]) (unitOrder_le hd hp)
    (deriv_max hd hp hf) (deriv_small hf)
  rw [sub_unitOrder hd] at s3
  have hdw : y = dw := Except.ok.inj (y1.symm.trans e3)
  subst hdw
  have hlen : ds.length = (ds.set e (p - 1)).length := by simp
  obtain ⟨z, z1, s2⟩ := Spline.mulOp_returns (K := K) cfg hc (fun (x : V) (c : K) => c • x) s1 h.2 hlen (low_degs hd hp hf)
  rw [sumDegrees_low hd hp] at s2
  obtain rfl : z = a := Except.ok.inj (z1.symm.trans e2)
  obtain ⟨v, v1, s4⟩ := Spline.mulOp_returns (K := K) cfg hc (fun (c : K) (x : V) => c • x) s3 h.1 hlen (low_degs hd hp hf)
  rw [sumDegrees_low hd hp] at s4
  obtain rfl : v = b := Except.ok.inj (v1.symm.trans e4)
  rw [Spline.subOp_eq s2 s4 (low_fits hd hp hf) le_of_same] at e5
  obtain ⟨u, u1, s5⟩ := Spline.subAssign_returns (K := K) cfg s2 s4 (low_fits hd hp hf)
  rw [maxDegrees_self] at s5
  obtain rfl : u = c := Except.ok.inj (u1.symm.trans e5)
  have hsm : size ((lowDegrees ds e p).modify e (· + 1)) < 2 ^ 31 := by rw [low_modify hd hp]; simpa using hf.small
  obtain ⟨m, m1, s6⟩ := Spline.orderElevate_returns (K := K) s5 (d := e) (by simpa [lowDegrees] using hdl) hsm
  rw [low_modify hd hp] at s6
  obtain rfl : m = n := Except.ok.inj (m1.symm.trans e6)
  obtain ⟨k, k1, s7⟩ := Spline.mulOp_returns (K := K) cfg hc (fun x y : K => x * y) h.2 h.2 rfl (double_degs hf)
  rw [sumDegrees_double] at s7
  obtain rfl : k = w := Except.ok.inj (k1.symm.trans e7)
  obtain rfl := ofSplines_inv e8
  exact ⟨⟨x, z, v, u, y, e1, e2, e3, e4, e5, e6, e7, s1, s2, s3, s4, s5, s6, s7⟩⟩

variable {cfg : Cfg} {a b ra rb : RSpline K V} {da db : List ℕ}

theorem rglued_derivStep (hc : cfg.Ok) {e p : ℕ} (hed : e ≠ d) (h : RGlued d sa sb a b) (ha : HasRShape da a) (hb : HasRShape db b)
    (hd : da[e]? = some p) (hd' : db[e]? = some p) (hp : 1 ≤ p) (hf : DerivFits cfg da 1) (hf' : DerivFits cfg db 1)
    (ea : derivativeStep cfg a e = .ok ra) (eb : derivativeStep cfg b e = .ok rb) :
    RGlued d sa sb ra rb ∧ HasRShape (da.map (· * 2)) ra ∧ HasRShape (db.map (· * 2)) rb := by
  obtain ⟨A⟩ := derivativeStep_round hc ha hd hp hf ea
  obtain ⟨B⟩ := derivativeStep_round hc hb hd' hp hf' eb
  have hl : db.length = da.length := by
    obtain ⟨-, -, _, q, -, hq, -⟩ := h.1
    rw [ha.1.2, hb.1.2] at hq
    rw [hq, List.length_set]
  have hu : unitOrder db e = unitOrder da e := by unfold unitOrder; rw [hl]
  have h1 := A.h1
  have h1' := B.h1
  have h3 := A.h3
  have h3' := B.h3
  rw [hu] at h1' h3'
  have hod : (unitOrder da e)[d]? = some 0 := by
    have hdl : d < da.length := by
      obtain ⟨-, -, _, q, hq, -, -⟩ := h.1
      rw [ha.1.2] at hq
      exact (List.getElem?_eq_some_iff.mp hq).1
    unfold unitOrder
    rw [List.getElem?_set_ne hed, List.getElem?_replicate_of_lt hdl]
  have g1 := Spline.glued_deriv hc h.1 (by rw [ha.1.2]; simp [unitOrder]) hod (by rw [ha.1.2]; exact unitOrder_le hd hp) (deriv_max hd hp hf)
    (by rw [ha.1.2]; exact deriv_small hf) (by rw [hb.1.2]; exact deriv_small hf') h1 h1'
  have g3 := Spline.glued_deriv hc h.2 (by rw [ha.2.2]; simp [unitOrder]) hod (by rw [ha.2.2]; exact unitOrder_le hd hp) (deriv_max hd hp hf)
    (by rw [ha.2.2]; exact deriv_small hf) (by rw [hb.2.2]; exact deriv_small hf') h3 h3'
  have g2 := (Spline.glued_mul (K := K) hc g1 h.2 (by rw [A.s1.2, ha.2.2]; simp) (by rw [A.s1.2, ha.2.2]; exact low_degs hd hp hf)
    (by rw [B.s1.2, hb.2.2]; exact low_degs hd' hp hf') A.h2 B.h2).1
  have g4 := (Spline.glued_mul (K := K) hc g3 h.1 (by rw [A.s3.2, ha.1.2]; simp) (by rw [A.s3.2, ha.1.2]; exact low_degs hd hp hf)
    (by rw [B.s3.2, hb.1.2]; exact low_degs hd' hp hf') A.h4 B.h4).1
  have g5 := Spline.glued_subAssign g2 g4 A.s2 A.s4 B.s2 B.s4 (low_fits hd hp hf) (low_fits hd' hp hf') A.h5 B.h5
  have g6 := Spline.glued_elevateAny g5 (by rw [A.s5.2]; simpa [lowDegrees] using (List.getElem?_eq_some_iff.mp hd).1)
    (by rw [A.s5.2, low_modify hd hp]; simpa using hf.small) (by rw [B.s5.2, low_modify hd' hp]; simpa using hf'.small) A.h6 B.h6
  have g7 := (Spline.glued_mul (K := K) hc h.2 h.2 rfl (by rw [ha.2.2]; exact double_degs hf) (by rw [hb.2.2]; exact double_degs hf') A.h7 B.h7).1
  exact ⟨⟨g6, g7⟩, A.s6, B.s6⟩

theorem sum_take_lt {l : List ℕ} {k : ℕ} (hk : k < l.length) {i : ℕ} (hi : i < l[k]) : (l.take k).sum + i < l.sum := by
  have : l.sum = (l.take k).sum + (l[k] + (l.drop (k + 1)).sum) := by
    conv_lhs => rw [← List.take_append_drop k l, List.drop_eq_getElem_cons hk, List.sum_append, List.sum_cons]
  omega

theorem map_double (ds : List ℕ) (m : ℕ) : (ds.map (· * 2 ^ m)).map (· * 2) = ds.map (· * 2 ^ (m + 1)) := by
  rw [List.map_map]; congr 1; funext x; simp only [Function.comp]; rw [pow_succ, mul_assoc]

theorem rglued_deriv (hc : cfg.Ok) {orders : List ℕ} (hod : orders[d]? = some 0) (h : RGlued d sa sb a b) (ha : HasRShape da a) (hb : HasRShape db b)
    (hl : orders.length = da.length) (hpos : ∀ e o p : ℕ, orders[e]? = some o → da[e]? = some p → 1 ≤ o → 1 ≤ p)
    (hf : DerivFits cfg da orders.sum) (hf' : DerivFits cfg db orders.sum) (ea : a.derivativeSpline cfg orders = .ok ra)
    (eb : b.derivativeSpline cfg orders = .ok rb) : RGlued d sa sb ra rb := by
  obtain ⟨-, -, -, q, -, hq, -⟩ := id h.1
  rw [ha.1.2, hb.1.2] at hq
  have hdb : db.length = da.length := by rw [hq, List.length_set]
  have hdim : a.dim = da.length := by unfold dim Spline.dim; first | rw [ha.1.2] | rw [ha.2.2]
  have hdim' : b.dim = da.length := by rw [← hdb]; unfold dim Spline.dim; first | rw [hb.1.2] | rw [hb.2.2]
  unfold derivativeSpline at ea eb
  rw [hdim] at ea
  rw [hdim'] at eb
  let P : ℕ → RSpline K V → RSpline K V → Prop := fun m x y =>
    RGlued d sa sb x y ∧ HasRShape (da.map (· * 2 ^ m)) x ∧ HasRShape (db.map (· * 2 ^ m)) y
  have key := loop_two (P := fun k x y => P (orders.take k).sum x y) ea eb
    (by refine ⟨h, ?_, ?_⟩ <;> simpa [P] using by assumption) (by
      intro k hk x y x' y' hP fx fy
      have hko : k < orders.length := by omega
      rw [rd_getElem hko, bind_ok] at fx fy
      have inner := loop_two (P := fun i x y => P ((orders.take k).sum + i) x y) fx fy hP (by
        rintro i hi u v u' v' ⟨p1, p2, p3⟩ gu gv
        have hlt := sum_take_lt hko hi
        have hkd : k ≠ d := by
          rintro rfl
          rw [List.getElem?_eq_getElem hko] at hod
          have := Option.some.inj hod
          omega
        have hdk : da[k]? = some da[k] := List.getElem?_eq_getElem hk
        have hdk' : db[k]? = some da[k] := by rw [hq, List.getElem?_set_ne (Ne.symm hkd)]; exact hdk
        have hp1 := hpos k _ _ (List.getElem?_eq_getElem hko) hdk (by omega)
        have := rglued_derivStep hc hkd p1 p2 p3 (p := da[k] * 2 ^ ((orders.take k).sum + i)) (by rw [List.getElem?_map, hdk]; rfl)
          (by rw [List.getElem?_map, hdk']; rfl) (Nat.mul_pos hp1 (by positivity)) (derivRound hf hlt) (derivRound hf' hlt) gu gv
        rw [map_double, map_double] at this
        exact this)
      have e : (orders.take (k + 1)).sum = (orders.take k).sum + orders[k] := by
        rw [List.take_succ_eq_append_getElem hko, List.sum_append]; simp
      simp only [e]
      exact inner)
  exact key.1

end RSpline
end Bezman
