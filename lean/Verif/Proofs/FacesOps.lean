import Verif.Proofs.FacesElevate

set_option linter.unusedSectionVars false

/-! # Patches that share a face: arithmetic -/

namespace Bezman
open Spec
attribute [local instance] parAny parScalarAny parPointAny

namespace Spline
variable {V W U : Type} {d : ℕ} {sa sb : Bool}

section map
variable [Zero V] [Zero W]

theorem glued_map {a b : Spline V} (h : Glued d sa sb a b) (f : V → W) :
    Glued d sa sb (⟨a.degrees, a.ncp, a.offsets, a.cps.map f⟩ : Spline W) ⟨b.degrees, b.ncp, b.offsets, b.cps.map f⟩ := by
  rw [glued_iff] at h ⊢
  obtain ⟨ha, hb, p, q, hp, hq, hl⟩ := h
  refine ⟨ha.map f, hb.map f, p, q, hp, hq, fun idx hv => ?_⟩
  have hv' : ValidIdx a.degrees idx := hv
  rw [cp_map ha f (validIdx_face hp hv' sa), cp_map hb f (by rw [hq]; exact validIdx_set hv' d q _ (faceIndex_le sb q)), hl idx hv']

theorem glued_mapCps {a b ra rb : Spline V} (h : Glued d sa sb a b) (f : V → V) (ea : a.mapCps f = .ok ra) (eb : b.mapCps f = .ok rb) :
    Glued d sa sb ra rb := by
  rw [mapCps_ok h.1] at ea
  rw [mapCps_ok h.2.1] at eb
  cases ea; cases eb
  exact glued_map h f

theorem glued_neg [Neg V] {a b ra rb : Spline V} (h : Glued d sa sb a b) (ea : a.negOp = .ok ra) (eb : b.negOp = .ok rb) :
    Glued d sa sb ra rb := by
  rw [negOp_ok h.1] at ea
  rw [negOp_ok h.2.1] at eb
  cases ea; cases eb
  exact glued_map h _

theorem glued_pointSub [Sub V] [Neg V] {a b ra rb : Spline V} (h : Glued d sa sb a b) (v : V) (ea : pointSub v a = .ok ra)
    (eb : pointSub v b = .ok rb) : Glued d sa sb ra rb := by
  unfold pointSub at ea eb
  rw [bind_eq_ok] at ea eb
  obtain ⟨x, h1, h2⟩ := ea
  obtain ⟨y, h3, h4⟩ := eb
  exact glued_neg (glued_mapCps h _ h1 h3) h2 h4

theorem glued_extract {K : Type} [Zero K] [Coords K V] {a b : Spline V} {ra rb : Spline K} (h : Glued d sa sb a b) {j : ℕ}
    (hj : j < Coords.n K V) (ea : extractDimension K a j = .ok ra) (eb : extractDimension K b j = .ok rb) : Glued d sa sb ra rb := by
  have e1 := extractDimension_eq (K := K) h.1 ⟨j, hj⟩
  have e2 := extractDimension_eq (K := K) h.2.1 ⟨j, hj⟩
  rw [e1] at ea; rw [e2] at eb
  cases ea; cases eb
  exact glued_map h _

theorem glued_zip [Add V] {a b a' b' : Spline V} (h : Glued d sa sb a b) (h' : Glued d sa sb a' b') (hd : a'.degrees = a.degrees)
    (hd' : b'.degrees = b.degrees) (f : V → V → V) {c c' : List V} (e : zipCps a.ncp f a.cps a'.cps = .ok c)
    (e' : zipCps b.ncp f b.cps b'.cps = .ok c') : Glued d sa sb { a with cps := c } { b with cps := c' } := by
  rw [glued_iff] at h h' ⊢
  obtain ⟨ha, hb, p, q, hp, hq, hl⟩ := h
  obtain ⟨ha', hb', p', q', hp', hq', hl'⟩ := h'
  obtain ⟨c1, f1, w1, g1⟩ := zipCps_cp ha ha' hd f
  obtain ⟨c2, f2, w2, g2⟩ := zipCps_cp hb hb' hd' f
  rw [f1] at e; rw [f2] at e'
  cases e; cases e'
  rw [hd, hp] at hp'; cases hp'
  have hqq : q' = q := by
    have hdl := (List.getElem?_eq_some_iff.mp hp).1
    have := hq'.symm.trans (hd'.trans hq)
    rw [hd] at this
    have := congrArg (fun l : List ℕ => l[d]?) this
    rw [List.getElem?_set_self hdl, List.getElem?_set_self hdl] at this
    exact Option.some.inj this
  subst hqq
  refine ⟨w1, w2, p, q', hp, hq, fun idx hv => ?_⟩
  have hv' : ValidIdx a.degrees idx := hv
  rw [g1 _ (validIdx_face hp hv' sa), g2 _ (by rw [hq]; exact validIdx_set hv' d q' _ (faceIndex_le sb q')), hl idx hv', hl' idx (by rw [hd]; exact hv')]

end map

section binary
variable {K : Type} [Zero K] [One K] [Add K] [Sub K] [Mul K] [Neg K] [Div K] [NatCast K] [Zero V] [Add V] [Sub V] [Neg V] [SMul K V]

theorem elevateTo_returns (cfg : Cfg) {a : Spline V} {da T : List ℕ} (ha : HasShape da a) (hl : T.length = da.length)
    (hf : ∀ p ∈ T, p < cfg.fuel) (hf0 : 0 < cfg.fuel) (hs : size (maxDegrees da T) < 2 ^ 31) :
    Returns (maxDegrees da T) (elevateTo K cfg a T) := by
  obtain ⟨h, rfl⟩ := ha
  obtain ⟨r, h1, h2, h3, -⟩ := elevateTo_ok (K := ℝ) (cfg := cfg) (ghost_wf h) (target := T) hl hf hf0 hs
  have key : RelM strict (elevateTo K cfg a T) (elevateTo ℝ cfg a.ghost T) := parElevateTo cfg a.ghost_rel T
  rw [h1] at key
  generalize elevateTo K cfg a T = x at key
  cases key with
  | ok h => exact ⟨_, rfl, shape_of_rel h ⟨h2, h3⟩⟩
  | left _ _ h => cases h

theorem maxDegrees_eq (a b : List ℕ) : maxDegrees a b = maxDeg a b := rfl

/-- the two operands after elevation -/
theorem raise_both {cfg : Cfg} {a b : Spline V} {da db : List ℕ} (ha : HasShape da a) (hb : HasShape db b) (h : Fits cfg da db) :
    ∃ x y, elevateTo K cfg a b.degrees = .ok x ∧ elevateTo K cfg b x.degrees = .ok y ∧ HasShape (maxDegrees da db) x ∧
      HasShape (maxDegrees da db) y := by
  obtain ⟨x, e1, hx⟩ := elevateTo_returns (K := K) cfg ha (T := b.degrees) (by rw [hb.2]; exact h.dims)
    (by rw [hb.2]; exact fun p hp => h.rounds p (List.mem_append_right _ hp)) (by have := h.rounds2; omega) (by rw [hb.2]; exact h.small)
  rw [hb.2] at hx
  have hmm : maxDegrees db (maxDegrees da db) = maxDegrees da db := by
    rw [maxDegrees_eq, maxDegrees_eq, maxDeg_comm, maxDeg_assoc, maxDeg_self]
  obtain ⟨y, e2, hy⟩ := elevateTo_returns (K := K) cfg hb (T := x.degrees) (by rw [hx.2, maxDegrees_eq, maxDeg_length h.dims, h.dims])
    (by
      rw [hx.2]
      intro p hp
      obtain ⟨d, hd, rfl⟩ := List.mem_iff_getElem.mp hp
      simp only [maxDegrees, List.getElem_zipWith]
      exact max_lt (h.rounds _ (List.mem_append_left _ (List.getElem_mem _))) (h.rounds _ (List.mem_append_right _ (List.getElem_mem _))))
    (by have := h.rounds2; omega) (by rw [hx.2, hmm]; exact h.small)
  rw [hx.2, hmm] at hy
  exact ⟨x, y, e1, e2, hx, hy⟩

variable {a b a' b' ra rb : Spline V} {da db da' db' : List ℕ}

theorem glued_raise {cfg : Cfg} {x y x' y' : Spline V} (h : Glued d sa sb a b) (h' : Glued d sa sb a' b') (ha : HasShape da a) (ha' : HasShape da' a')
    (hb : HasShape db b) (hb' : HasShape db' b') (hf : Fits cfg da da') (hf' : Fits cfg db db')
    (e1 : elevateTo K cfg a a'.degrees = .ok x) (e2 : elevateTo K cfg a' x.degrees = .ok y)
    (f1 : elevateTo K cfg b b'.degrees = .ok x') (f2 : elevateTo K cfg b' x'.degrees = .ok y') :
    Glued d sa sb x x' ∧ Glued d sa sb y y' ∧ y.degrees = x.degrees ∧ y'.degrees = x'.degrees := by
  obtain ⟨u, v, u1, u2, u3, u4⟩ := raise_both (K := K) ha ha' hf
  obtain ⟨u', v', u1', u2', u3', u4'⟩ := raise_both (K := K) hb hb' hf'
  rw [u1] at e1; cases e1
  rw [u2] at e2; cases e2
  rw [u1'] at f1; cases f1
  rw [u2'] at f2; cases f2
  have hmm : ∀ x y : List ℕ, maxDeg x (maxDeg y x) = maxDeg y x := by
    intro x y; rw [maxDeg_comm, maxDeg_assoc, maxDeg_self]
  have hlen : a'.degrees.length = a.degrees.length := by rw [ha.2, ha'.2]; exact hf.dims
  have g1 : Glued d sa sb x x' := glued_elevateTo h hlen (glued_dim h') (fun e he => glued_deg h' he)
    (by rw [ha.2, ha'.2]; exact hf.small) (by rw [hb.2, hb'.2]; exact hf'.small) u1 u1'
  refine ⟨g1, ?_, by rw [u4.2, u3.2], by rw [u4'.2, u3'.2]⟩
  refine glued_elevateTo h' ?_ (glued_dim g1) (fun e he => glued_deg g1 he) ?_ ?_ u2 u2'
  · rw [u3.2, maxDegrees_eq, maxDeg_length hf.dims, ha'.2, hf.dims]
  · rw [u3.2, ha'.2, maxDegrees_eq, hmm]; exact hf.small
  · rw [u3'.2, hb'.2, maxDegrees_eq, hmm]; exact hf'.small

theorem glued_addAssign {cfg : Cfg} (h : Glued d sa sb a b) (h' : Glued d sa sb a' b') (ha : HasShape da a) (ha' : HasShape da' a')
    (hb : HasShape db b) (hb' : HasShape db' b') (hf : Fits cfg da da') (hf' : Fits cfg db db')
    (ea : addAssign K cfg a a' = .ok ra) (eb : addAssign K cfg b b' = .ok rb) : Glued d sa sb ra rb := by
  unfold addAssign at ea eb
  simp only [bind_eq_ok] at ea eb
  obtain ⟨x, e1, y, e2, c, e3, e4⟩ := ea
  obtain ⟨x', f1, y', f2, c', f3, f4⟩ := eb
  obtain ⟨g1, g2, g3, g4⟩ := glued_raise h h' ha ha' hb hb' hf hf' e1 e2 f1 f2
  cases e4; cases f4
  exact glued_zip g1 g2 g3 g4 _ e3 f3

theorem glued_subAssign {cfg : Cfg} (h : Glued d sa sb a b) (h' : Glued d sa sb a' b') (ha : HasShape da a) (ha' : HasShape da' a')
    (hb : HasShape db b) (hb' : HasShape db' b') (hf : Fits cfg da da') (hf' : Fits cfg db db')
    (ea : subAssign K cfg a a' = .ok ra) (eb : subAssign K cfg b b' = .ok rb) : Glued d sa sb ra rb := by
  unfold subAssign at ea eb
  simp only [bind_eq_ok] at ea eb
  obtain ⟨x, e1, y, e2, c, e3, e4⟩ := ea
  obtain ⟨x', f1, y', f2, c', f3, f4⟩ := eb
  obtain ⟨g1, g2, g3, g4⟩ := glued_raise h h' ha ha' hb hb' hf hf' e1 e2 f1 f2
  cases e4; cases f4
  exact glued_zip g1 g2 g3 g4 _ e3 f3

theorem elevateTo_none {cfg : Cfg} {s : Spline V} (hf : 0 < cfg.fuel) {T : List ℕ} (hT : T.length = s.degrees.length)
    (h : ∀ i p t : ℕ, s.degrees[i]? = some p → T[i]? = some t → t ≤ p) : elevateTo K cfg s T = .ok s := by
  unfold elevateTo
  apply loop_eq (fun _ => s) rfl
  intro k hk
  have hx : s.degrees[k]? = some s.degrees[k] := List.getElem?_eq_getElem hk
  have hy := List.getElem?_eq_getElem (show k < T.length by unfold dim at hk; omega)
  apply whileM_false hf
  rw [rd_ok hx, rd_ok hy]
  have := h k _ _ hx hy
  simp [this]

/-- `a - b` is `a -= b` when no degree of `b` is larger -/
theorem subOp_eq {cfg : Cfg} (ha : HasShape da a) (ha' : HasShape da' a') (hf : Fits cfg da da')
    (hle : ∀ i p q : ℕ, da[i]? = some p → da'[i]? = some q → q ≤ p) : subOp K cfg a a' = subAssign K cfg a a' := by
  have hlen : a'.degrees.length = a.degrees.length := by rw [ha.2, ha'.2]; exact hf.dims
  have hfu : 0 < cfg.fuel := by have := hf.rounds2; omega
  have h0 : elevateTo K cfg a a'.degrees = .ok a :=
    elevateTo_none hfu hlen (fun i p t hp ht => hle i p t (by rw [← ha.2]; exact hp) (by rw [← ha'.2]; exact ht))
  unfold subOp subAssign
  rw [ofPoints_self ha.1, h0]
  simp only [bind_ok]
  have hl : loop a.dim (fun d ret =>
      whileM cfg.fuel (fun (_ : Spline V) => do
        let q ← rd a'.degrees d
        let p ← rd a.degrees d
        pure (decide (q > p))) (fun ret => orderElevate K ret d) ret) a = .ok a := by
    apply loop_eq (fun _ => a) rfl
    intro k hk
    have hx : a.degrees[k]? = some a.degrees[k] := List.getElem?_eq_getElem hk
    have hy := List.getElem?_eq_getElem (show k < a'.degrees.length by unfold dim at hk; omega)
    apply whileM_false hfu
    rw [rd_ok hx, rd_ok hy]
    have := hle k _ _ (by rw [← ha.2]; exact hx) (by rw [← ha'.2]; exact hy)
    simp [this]
  rw [hl]
  rfl

theorem zipCps_comm (hcomm : ∀ x y : V, x + y = y + x) {a b : Spline V} (ha : a.WF) (hb : b.WF) (hd : b.degrees = a.degrees) {c c' : List V}
    (e : zipCps a.ncp (· + ·) a.cps b.cps = .ok c) (e' : zipCps b.ncp (· + ·) b.cps a.cps = .ok c') :
    ({ a with cps := c } : Spline V) = { b with cps := c' } := by
  obtain ⟨c1, f1, w1, g1⟩ := zipCps_cp ha hb hd (· + ·)
  obtain ⟨c2, f2, w2, g2⟩ := zipCps_cp hb ha hd.symm (· + ·)
  rw [f1] at e; rw [f2] at e'
  cases e; cases e'
  refine cp_ext w1 w2 hd (fun idx hv => ?_)
  have hv' : ValidIdx a.degrees idx := hv
  rw [g1 idx hv', g2 idx (by rw [hd]; exact hv'), hcomm]

/-- `a + b` is `a += b` when addition is commutative -/
theorem addOp_eq (hcomm : ∀ x y : V, x + y = y + x) {cfg : Cfg} (ha : HasShape da a) (ha' : HasShape da' a') (hf : Fits cfg da da') :
    addOp K cfg a a' = addAssign K cfg a a' := by
  have hlen : a'.degrees.length = a.degrees.length := by rw [ha.2, ha'.2]; exact hf.dims
  have hfu : 0 < cfg.fuel := by have := hf.rounds2; omega
  obtain ⟨x, y, e1, e2, hx, hy⟩ := raise_both (K := K) ha ha' hf
  obtain ⟨c, hc1, hc2⟩ := needsCopy_ok (a := a.degrees) (b := a'.degrees) hlen
  have hiff : c = false ↔ maxDegrees da da' = da' := by
    rw [hc2]
    constructor
    · intro hle
      rw [maxDegrees_eq, maxDeg_comm]
      exact maxDeg_left hf.dims.symm (fun d x y hx hy => hle d y x (by rw [ha.2]; exact hy) (by rw [ha'.2]; exact hx))
    · intro he d p q hp hq
      rw [ha.2] at hp; rw [ha'.2] at hq
      have := maxDeg_getElem? hp hq
      rw [← maxDegrees_eq, he, hq] at this
      simp at this; omega
  obtain ⟨n, hn⟩ : ∃ n, cfg.fuel = n + 2 := ⟨cfg.fuel - 2, by have := hf.rounds2; omega⟩
  obtain ⟨r, f1, -, -⟩ := zipCps_cp hx.1 hy.1 (by rw [hx.2, hy.2]) (· + ·)
  obtain ⟨r', f2, -, -⟩ := zipCps_cp hy.1 hx.1 (by rw [hx.2, hy.2]) (· + ·)
  have hass : addAssign K cfg a a' = .ok { x with cps := r } := by
    unfold addAssign
    rw [e1]; simp only [bind_ok]
    rw [e2]; simp only [bind_ok]
    rw [f1]; rfl
  rw [hass]
  unfold addOp
  rw [hn, addAux, ofPoints_self ha.1]
  simp only [bind_ok]
  rw [show a.dim = a.degrees.length from rfl, hc1]
  simp only [bind_ok]
  rw [e1]
  simp only [bind_ok]
  cases c with
  | false =>
    have he := hiff.mp rfl
    have : y = a' := by
      have := elevateTo_none (K := K) (cfg := cfg) (s := a') hfu (T := x.degrees) (by rw [hx.2, he, ha'.2])
        (fun i p t hp ht => by rw [ha'.2] at hp; rw [hx.2, he, hp] at ht; cases ht; exact le_refl _)
      rw [this] at e2
      exact (Except.ok.inj e2).symm
    rw [this] at f1
    simp only [Bool.not_false, if_true]
    rw [f1]; rfl
  | true =>
    simp only [Bool.not_true, Bool.false_eq_true, if_false]
    have hxd : x.degrees.length = a'.degrees.length := by rw [hx.2, maxDegrees_eq, maxDeg_length hf.dims, ha'.2, hf.dims]
    obtain ⟨c, hc1, hc2⟩ := needsCopy_ok (a := a'.degrees) (b := x.degrees) hxd
    have hcf : c = false := by
      rw [hc2]
      intro i p q hp hq
      rw [ha'.2] at hp
      have hi := (List.getElem?_eq_some_iff.mp hp).1
      rw [hx.2, maxDegrees_eq, maxDeg_getElem? (List.getElem?_eq_getElem (by rw [← hf.dims]; exact hi)) hp] at hq
      cases hq
      exact le_max_right _ _
    rw [addAux, ofPoints_self ha'.1]
    simp only [bind_ok]
    rw [show a'.dim = a'.degrees.length from rfl, hc1]
    simp only [bind_ok]
    rw [e2]
    simp only [bind_ok, hcf, Bool.not_false, if_true]
    rw [f2]
    simp only [bind_ok, pure_eq_ok]
    rw [zipCps_comm hcomm hx.1 hy.1 (by rw [hx.2, hy.2]) f1 f2]

end binary

end Spline
end Bezman
