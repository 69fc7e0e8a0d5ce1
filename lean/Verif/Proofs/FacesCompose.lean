import Verif.Proofs.FacesOps
import Verif.Proofs.Compose

set_option linter.unusedSectionVars false

/-! # Patches that share a face: products, powers, compositions -/

namespace Bezman
open Spec

theorem rd_some_of_ok {α : Type} {l : List α} {i : ℕ} {x : α} (h : rd l i = .ok x) : l[i]? = some x := by
  unfold rd at h
  split at h
  · cases h; assumption
  · cases h

theorem wr_eq_of_ok {α : Type} {l l' : List α} {i : ℕ} {x : α} (h : wr l i x = .ok l') : l' = l.set i x ∧ i < l.length := by
  unfold wr at h
  split at h
  · cases h; exact ⟨rfl, by assumption⟩
  · cases h

namespace Spline
variable {K V W U : Type} {d : ℕ} {sa sb : Bool}

section mul
variable [One K] [Mul K] [Div K] [NatCast K] [Zero V] [Zero W] [Zero U] [Add U] [SMul K U]

theorem glued_mul {cfg : Cfg} (hc : cfg.Ok) {mul : V → W → U} {a b : Spline V} {a' b' : Spline W} {ra rb : Spline U}
    (h : Glued d sa sb a b) (h' : Glued d sa sb a' b') (hdim : a'.degrees.length = a.degrees.length)
    (hda : DegOk cfg (List.zipWith (· + ·) a.degrees a'.degrees)) (hdb : DegOk cfg (List.zipWith (· + ·) b.degrees b'.degrees))
    (ea : mulOp K cfg mul a a' = .ok ra) (eb : mulOp K cfg mul b b' = .ok rb) :
    Glued d sa sb ra rb ∧ ra.degrees = List.zipWith (· + ·) a.degrees a'.degrees ∧ rb.degrees = List.zipWith (· + ·) b.degrees b'.degrees := by
  have hdim' : b'.degrees.length = b.degrees.length := by rw [glued_dim h, glued_dim h', hdim]
  obtain ⟨r, r1, r2, r3, r4⟩ := mulOp_net (K := K) hc (mul := mul) h.1 h'.1 hdim hda
  obtain ⟨r', r1', r2', r3', r4'⟩ := mulOp_net (K := K) hc (mul := mul) h.2.1 h'.2.1 hdim' hdb
  rw [r1] at ea; rw [r1'] at eb
  cases ea; cases eb
  refine ⟨?_, r3, r3'⟩
  rw [glued_iff] at h h' ⊢
  obtain ⟨ha, hb, p, q, hp, hq, hl⟩ := h
  obtain ⟨ha', hb', p', q', hp', hq', hl'⟩ := h'
  have hdl := (List.getElem?_eq_some_iff.mp hp).1
  have e1 : ra.degrees[d]? = some (p + p') := by rw [r3, List.getElem?_zipWith, hp, hp']
  have e2 : rb.degrees = ra.degrees.set d (q + q') := by
    rw [r3', r3, hq, hq']
    apply List.ext_getElem?
    intro i
    by_cases hi : d = i
    · subst hi
      rw [List.getElem?_zipWith, List.getElem?_set_self hdl, List.getElem?_set_self (by omega), List.getElem?_set_self (by simp; omega)]
    · rw [List.getElem?_set_ne hi, List.getElem?_zipWith, List.getElem?_zipWith, List.getElem?_set_ne hi, List.getElem?_set_ne hi]
  refine ⟨r2, r2', p + p', q + q', e1, e2, fun idx hv => ?_⟩
  rw [r4 _ (validIdx_face e1 hv sa), r4' _ (by rw [e2]; exact validIdx_set hv d _ _ (faceIndex_le sb _)), hq, hq']
  exact productNet_face hdim (by rw [hv.length, r3]; simp [hdim]) hp hp' hl hl'

end mul

section scalar
variable [Zero K] [One K] [Add K] [Mul K] [Div K] [NatCast K] {qa qb : List ℕ}

/-- splines of degrees `c` times `qa`, `qb` that share the face -/
structure GluedPair (d : ℕ) (sa sb : Bool) (qa qb : List ℕ) (c : ℕ) (x y : Spline K) : Prop where
  glued : Glued d sa sb x y
  left : x.degrees = qa.map (c * ·)
  right : y.degrees = qb.map (c * ·)

theorem GluedPair.mul {cfg : Cfg} (hc : cfg.Ok) {k l : ℕ} {x y x' y' r r' : Spline K} (h : GluedPair d sa sb qa qb k x y)
    (h' : GluedPair d sa sb qa qb l x' y') (hd : DegOk cfg (qa.map ((k + l) * ·))) (hd' : DegOk cfg (qb.map ((k + l) * ·)))
    (e : mulScalar cfg x x' = .ok r) (e' : mulScalar cfg y y' = .ok r') : GluedPair d sa sb qa qb (k + l) r r' := by
  have e1 : List.zipWith (· + ·) x.degrees x'.degrees = qa.map ((k + l) * ·) := by rw [h.left, h'.left, zipWith_map_mul]
  have e2 : List.zipWith (· + ·) y.degrees y'.degrees = qb.map ((k + l) * ·) := by rw [h.right, h'.right, zipWith_map_mul]
  obtain ⟨g1, g2, g3⟩ := glued_mul (K := K) hc h.glued h'.glued (by rw [h.left, h'.left]; simp) (by rw [e1]; exact hd) (by rw [e2]; exact hd') e e'
  exact ⟨g1, by rw [g2, e1], by rw [g3, e2]⟩

theorem glued_one {n : ℕ} (hd : d < n) {x y : Spline K} (hx : oneSpline n = .ok x) (hy : oneSpline n = .ok y) : Glued d sa sb x y := by
  rw [hx] at hy; cases hy
  have h0 := ofPoints_ok (ps := List.replicate n 0) (pts := [(1 : K)]) (by simp; omega) (by simp [size_replicate_zero])
  unfold oneSpline at hx
  rw [h0.1] at hx
  cases hx
  have hdg : (List.replicate n 0)[d]? = some 0 := by rw [List.getElem?_replicate]; simp [hd]
  rw [glued_iff]
  refine ⟨h0.2, h0.2, 0, 0, hdg, (set_deg hdg).symm, fun idx _ => ?_⟩
  cases sa <;> cases sb <;> rfl

theorem GluedPair.one (hq : qb.length = qa.length) (hd : d < qa.length) {x y : Spline K} (hx : oneSpline qa.length = .ok x)
    (hy : oneSpline qb.length = .ok y) : GluedPair d sa sb qa qb 0 x y := by
  have h0 := ofPoints_ok (ps := List.replicate qa.length 0) (pts := [(1 : K)]) (by simp; omega) (by simp [size_replicate_zero])
  rw [hq] at hy
  refine ⟨glued_one hd hx hy, ?_, ?_⟩
  · unfold oneSpline at hx
    rw [h0.1] at hx
    cases hx
    rw [map_zero_mul]
  · unfold oneSpline at hy
    rw [h0.1] at hy
    cases hy
    rw [map_zero_mul, hq]

theorem GluedPair.dims {c : ℕ} {x y : Spline K} (h : GluedPair d sa sb qa qb c x y) : qb.length = qa.length ∧ d < qa.length := by
  have h1 := glued_dim h.glued
  rw [h.left, h.right] at h1
  obtain ⟨-, -, p, q, hp, -⟩ := h.glued
  have := (List.getElem?_eq_some_iff.mp hp).1
  rw [h.left] at this
  exact ⟨by simpa using h1, by simpa using this⟩

theorem glued_powerAux {cfg : Cfg} (hc : cfg.Ok) {a b : Spline K} (h : GluedPair d sa sb qa qb 1 a b) :
    ∀ (depth power : ℕ) (r r' : Spline K), DegOk cfg (qa.map (power * ·)) → DegOk cfg (qb.map (power * ·)) →
      raisePowerAux cfg a depth power = .ok r → raisePowerAux cfg b depth power = .ok r' → GluedPair d sa sb qa qb power r r'
  | 0, _, _, _, _, _, e, _ => by simp [raisePowerAux] at e
  | depth + 1, power, r, r', h1, h2, e, e' => by
    have hdim : a.dim = qa.length := by unfold dim; rw [h.left]; simp
    have hdim' : b.dim = qb.length := by unfold dim; rw [h.right]; simp
    rw [raisePowerAux] at e e'
    by_cases h0 : power = 0
    · subst h0
      simp only [if_true, hdim, hdim'] at e e'
      exact GluedPair.one h.dims.1 h.dims.2 e e'
    · by_cases h1' : power = 1
      · subst h1'
        simp at e e'
        cases e; cases e'; exact h
      · simp only [h0, h1', if_false, bind_eq_ok] at e e'
        obtain ⟨x, e1, e2⟩ := e
        obtain ⟨y, f1, f2⟩ := e'
        have ih := glued_powerAux hc h depth (power / 2) x y (DegOk.mono_mul (by omega) h1) (DegOk.mono_mul (by omega) h2) e1 f1
        have hle : power / 2 + power / 2 ≤ power := by omega
        by_cases hev : power % 2 = 0
        · simp only [hev, if_true] at e2 f2
          have := ih.mul hc ih (DegOk.mono_mul hle h1) (DegOk.mono_mul hle h2) e2 f2
          rwa [show power / 2 + power / 2 = power by omega] at this
        · simp only [hev, if_false, bind_eq_ok] at e2 f2
          obtain ⟨u, u1, u2⟩ := e2
          obtain ⟨v, v1, v2⟩ := f2
          have g := ih.mul hc ih (DegOk.mono_mul hle h1) (DegOk.mono_mul hle h2) u1 v1
          have hp : power / 2 + power / 2 + 1 = power := by omega
          have := g.mul hc h (by rw [hp]; exact h1) (by rw [hp]; exact h2) u2 v2
          rwa [hp] at this

/-- entries at equal positions are related -/
def Rows (P : ℕ → Spline K → Spline K → Prop) (l l' : List (Spline K)) : Prop :=
  l'.length = l.length ∧ ∀ i x y, l[i]? = some x → l'[i]? = some y → P i x y

theorem Rows.set {P Q : ℕ → Spline K → Spline K → Prop} {l l' : List (Spline K)} (h : Rows P l l') {i : ℕ} {x y : Spline K} (hx : Q i x y)
    (hPQ : ∀ j, j ≠ i → ∀ u v, P j u v → Q j u v) : Rows Q (l.set i x) (l'.set i y) := by
  refine ⟨by simpa using h.1, fun j u v hu hv => ?_⟩
  by_cases hij : i = j
  · subst hij
    rw [List.getElem?_set_self (by have := (List.getElem?_eq_some_iff.mp hu).1; simpa using this)] at hu
    rw [List.getElem?_set_self (by have := (List.getElem?_eq_some_iff.mp hv).1; simpa using this)] at hv
    cases hu; cases hv; exact hx
  · rw [List.getElem?_set_ne hij] at hu hv
    exact hPQ j (Ne.symm hij) u v (h.2 j u v hu hv)

theorem Rows.imp {P Q : ℕ → Spline K → Spline K → Prop} {l l' : List (Spline K)} (h : Rows P l l') (hPQ : ∀ j u v, P j u v → Q j u v) :
    Rows Q l l' := ⟨h.1, fun j u v hu hv => hPQ j u v (h.2 j u v hu hv)⟩

theorem glued_composeBernstein {cfg : Cfg} (hc : cfg.Ok) {p : ℕ} {e e' i i' : Spline K} (he : GluedPair d sa sb qa qb 1 e e')
    (hi : GluedPair d sa sb qa qb 1 i i') (hda : DegOk cfg (qa.map (p * ·))) (hdb : DegOk cfg (qb.map (p * ·)))
    {l l' : List (Spline K)} (h : composeBernstein cfg p qa.length e i = .ok l) (h' : composeBernstein cfg p qb.length e' i' = .ok l') :
    Rows (fun j x y => j ≤ p → GluedPair d sa sb qa qb p x y) l l' := by
  unfold composeBernstein at h h'
  simp only [bind_eq_ok] at h h'
  obtain ⟨o, o1, l0, o2, ⟨l1, m1⟩, o3, ⟨l2, m2⟩, o4, o5⟩ := h
  obtain ⟨o', o1', l0', o2', ⟨l1', m1'⟩, o3', ⟨l2', m2'⟩, o4', o5'⟩ := h'
  have hone := GluedPair.one (sa := sa) (sb := sb) he.dims.1 he.dims.2 o1 o1'
  obtain ⟨rfl, -⟩ := wr_eq_of_ok o2
  obtain ⟨rfl, -⟩ := wr_eq_of_ok o2'
  have s1 := loopFrom_two (P := fun k (r r' : List (Spline K) × Spline K) =>
      Rows (fun j x y => j < k → GluedPair d sa sb qa qb j x y) r.1 r'.1 ∧ GluedPair d sa sb qa qb (k - 1) r.2 r'.2) (by omega) o3 o3'
    ⟨by
      refine Rows.set (P := fun _ _ _ => True) ⟨by simp, fun _ _ _ _ _ => trivial⟩ (fun _ => hone) (fun j hj u v _ hj' => by omega), hone⟩ (by
      rintro k hk1 hk2 ⟨x, m⟩ ⟨y, m'⟩ r r' ⟨hr, hm⟩ f1 f2
      simp only [bind_eq_ok] at f1 f2 hr hm
      obtain ⟨u, u1, w, u2, u3⟩ := f1
      obtain ⟨v, v1, w', v2, v3⟩ := f2
      have hk : k - 1 + 1 = k := by omega
      have g := hm.mul hc he (by rw [hk]; exact DegOk.mono_mul (by omega) hda) (by rw [hk]; exact DegOk.mono_mul (by omega) hdb) u1 v1
      rw [hk] at g
      obtain ⟨rfl, -⟩ := wr_eq_of_ok u2
      obtain ⟨rfl, -⟩ := wr_eq_of_ok v2
      cases u3; cases v3
      exact ⟨hr.set (fun _ => g) (fun j hj u v huv hj' => huv (by omega)), by simpa using g⟩)
  have s2 := loopFrom_two (P := fun k (r r' : List (Spline K) × Spline K) =>
      Rows (fun j x y => (j ≤ p → p < j + k → GluedPair d sa sb qa qb p x y) ∧ (j + k ≤ p → GluedPair d sa sb qa qb j x y)) r.1 r'.1 ∧
        GluedPair d sa sb qa qb (k - 1) r.2 r'.2) (by omega) o4 o4'
    ⟨s1.1.imp (fun j u v huv => ⟨fun h1 h2 => by
        obtain rfl : j = p := by omega
        exact huv (by omega), fun h1 => huv (by omega)⟩), hone⟩ (by
      rintro k hk1 hk2 ⟨x, m⟩ ⟨y, m'⟩ r r' ⟨hr, hm⟩ f1 f2
      simp only [bind_eq_ok] at f1 f2 hr hm
      obtain ⟨u, u1, b, ub, b1, u4, w, u2, u3⟩ := f1
      obtain ⟨v, v1, b', vb, b1', v4, w', v2, v3⟩ := f2
      have hk : k - 1 + 1 = k := by omega
      have g := hm.mul hc hi (by rw [hk]; exact DegOk.mono_mul (by omega) hda) (by rw [hk]; exact DegOk.mono_mul (by omega) hdb) u1 v1
      rw [hk] at g
      have gb := (hr.2 (p - k) b b' (rd_some_of_ok ub) (rd_some_of_ok vb)).2 (by omega)
      have hpk : p - k + k = p := by omega
      have gg := gb.mul hc g (by rw [hpk]; exact hda) (by rw [hpk]; exact hdb) u4 v4
      rw [hpk] at gg
      obtain ⟨rfl, -⟩ := wr_eq_of_ok u2
      obtain ⟨rfl, -⟩ := wr_eq_of_ok v2
      cases u3; cases v3
      exact ⟨hr.set ⟨fun _ _ => gg, fun h => by omega⟩ (fun j hj u v huv => ⟨fun h1 h2 => huv.1 h1 (by omega), fun h1 => huv.2 (by omega)⟩),
        by simpa using g⟩)
  have s3 : Rows (fun j x y => j ≤ p → GluedPair d sa sb qa qb p x y) l2 l2' :=
    s2.1.imp (fun j u v huv h1 => huv.1 h1 (by omega))
  by_cases hp1 : p ≤ 1
  · rw [loopFrom_empty hp1] at o5 o5'
    cases o5; cases o5'
    exact s3
  · exact loopFrom_two (P := fun _ r r' => Rows (fun j x y => j ≤ p → GluedPair d sa sb qa qb p x y) r r') (by omega) o5 o5' s3 (by
      rintro k hk1 hk2 x y r r' hr f1 f2
      simp only [bind_eq_ok] at f1 f2
      obtain ⟨b, ub, c, uc, b1, u4, u2⟩ := f1
      obtain ⟨b', vb, c', vc, b1', v4, v2⟩ := f2
      rw [uc] at vc; cases vc
      have gb := hr.2 (p - k) b b' (rd_some_of_ok ub) (rd_some_of_ok vb) (by omega)
      obtain ⟨rfl, -⟩ := wr_eq_of_ok u2
      obtain ⟨rfl, -⟩ := wr_eq_of_ok v2
      have gs : GluedPair d sa sb qa qb p b1 b1' := by
        refine ⟨glued_mapCps gb.glued _ u4 v4, ?_, ?_⟩
        · unfold smulOp at u4; rw [mapCps_ok gb.glued.1] at u4; cases u4; exact gb.left
        · unfold smulOp at v4; rw [mapCps_ok gb.glued.2.1] at v4; cases v4; exact gb.right
      exact hr.set (fun _ => gs) (fun _ _ _ _ huv => huv))

/-- all basis splines are related -/
def Tables (d : ℕ) (sa sb : Bool) (qa qb ps : List ℕ) (b b' : List (List (Spline K))) : Prop :=
  b.length = ps.length ∧ b'.length = ps.length ∧ ∀ (e p : ℕ) l l', ps[e]? = some p → b[e]? = some l → b'[e]? = some l' →
    Rows (fun j x y => j ≤ p → GluedPair d sa sb qa qb p x y) l l'

theorem glued_composeBases {cfg : Cfg} (hc : cfg.Ok) {ps : List ℕ} {ex ex' : ℕ → M (Spline K)} {inv inv' : Spline K → M (Spline K)}
    (hex : ∀ e, e < ps.length → ∀ x x', ex e = .ok x → ex' e = .ok x' → GluedPair d sa sb qa qb 1 x x')
    (hinv : ∀ x x' y y', GluedPair d sa sb qa qb 1 x x' → inv x = .ok y → inv' x' = .ok y' → GluedPair d sa sb qa qb 1 y y')
    (hda : DegOk cfg (qa.map (ps.sum * ·))) (hdb : DegOk cfg (qb.map (ps.sum * ·))) {b b' : List (List (Spline K))}
    (h : composeBases cfg ps qa.length ex inv = .ok b) (h' : composeBases cfg ps qb.length ex' inv' = .ok b') :
    Tables d sa sb qa qb ps b b' := by
  unfold composeBases at h h'
  have s := loop_two (P := fun k (b b' : List (List (Spline K))) => b.length = ps.length ∧ b'.length = ps.length ∧ ∀ (e p : ℕ) l l', e < k → ps[e]? = some p → b[e]? = some l → b'[e]? = some l' →
    Rows (fun j x y => j ≤ p → GluedPair d sa sb qa qb p x y) l l') h h' ⟨by simp, by simp, fun _ _ _ _ h => by omega⟩ (by
      rintro k hk x y x' y' ⟨h1, h2, h3⟩ f1 f2
      simp only [bind_eq_ok] at f1 f2
      obtain ⟨p, a1, e, a2, i, a3, l, a4, a5⟩ := f1
      obtain ⟨p', b1, e', b2, i', b3, l', b4, b5⟩ := f2
      rw [a1] at b1; cases b1
      have hp := rd_some_of_ok a1
      have hps : p ≤ ps.sum := List.le_sum_of_mem (List.mem_of_getElem? hp)
      have g := hex k hk _ _ a2 b2
      have gr := glued_composeBernstein hc g (hinv _ _ _ _ g a3 b3) (DegOk.mono_mul hps hda) (DegOk.mono_mul hps hdb) a4 b4
      obtain ⟨rfl, -⟩ := wr_eq_of_ok a5
      obtain ⟨rfl, -⟩ := wr_eq_of_ok b5
      refine ⟨by simpa using h1, by simpa using h2, fun e2 p2 m m' he2 hp2 hm hm' => ?_⟩
      by_cases hek : k = e2
      · subst hek
        rw [List.getElem?_set_self (by omega)] at hm hm'
        cases hm; cases hm'
        rw [hp] at hp2; cases hp2
        exact gr
      · rw [List.getElem?_set_ne hek] at hm hm'
        exact h3 e2 p2 m m' (by omega) hp2 hm hm')
  exact ⟨s.1, s.2.1, fun e p l l' hp => s.2.2 e p l l' (List.getElem?_eq_some_iff.mp hp).1 hp⟩

theorem glued_composeTensor {cfg : Cfg} (hc : cfg.Ok) {ps idx : List ℕ} {b b' : List (List (Spline K))}
    (h : Tables d sa sb qa qb ps b b') (hpos : 0 < ps.length) (hidx : ValidIdx ps idx)
    (hda : DegOk cfg (qa.map (ps.sum * ·))) (hdb : DegOk cfg (qb.map (ps.sum * ·))) {r r' : Spline K}
    (e : composeTensor cfg b idx = .ok r) (e' : composeTensor cfg b' idx = .ok r') : GluedPair d sa sb qa qb ps.sum r r' := by
  obtain ⟨hl, hl', h⟩ := h
  have hidx' := (validIdx_iff.mp hidx).2
  unfold composeTensor at e e'
  simp only [bind_eq_ok] at e e'
  obtain ⟨b0, e1, i0, e2, t0, e3, e4⟩ := e
  obtain ⟨b0', f1, i0', f2, t0', f3, f4⟩ := e'
  rw [e2] at f2; cases f2
  rw [hl] at e4; rw [hl'] at f4
  have get : ∀ (k : ℕ) (hk : k < ps.length) l l' i x x', rd b k = .ok l → rd b' k = .ok l' → rd idx k = .ok i → rd l i = .ok x → rd l' i = .ok x' →
      GluedPair d sa sb qa qb ps[k] x x' := by
    intro k hk l l' i x x' a1 a2 a3 a4 a5
    exact (h k _ l l' (List.getElem?_eq_getElem hk) (rd_some_of_ok a1) (rd_some_of_ok a2)).2 i x x' (rd_some_of_ok a4) (rd_some_of_ok a5)
      (hidx' k i _ (rd_some_of_ok a3) (List.getElem?_eq_getElem hk))
  have g0 := get 0 hpos _ _ _ _ _ e1 f1 e2 e3 f3
  have hsum : ∀ k, (ps.take k).sum ≤ ps.sum := by
    intro k
    conv_rhs => rw [← List.take_append_drop k ps, List.sum_append]
    omega
  have s := loopFrom_two (P := fun k r r' => GluedPair d sa sb qa qb (ps.take k).sum r r') (by omega) e4 f4
    (by
      have : (ps.take 1).sum = ps[0] := by
        cases ps with
        | nil => simp at hpos
        | cons a l => simp
      rw [this]; exact g0) (by
      rintro k hk1 hk2 x y x' y' hr a1 a2
      simp only [bind_eq_ok] at a1 a2
      obtain ⟨l, c1, i, c2, u, c3, c4⟩ := a1
      obtain ⟨l', d1, i', d2, u', d3, d4⟩ := a2
      rw [c2] at d2; cases d2
      have hs : (ps.take (k + 1)).sum = (ps.take k).sum + ps[k] := by
        rw [List.take_succ_eq_append_getElem hk2, List.sum_append]; simp
      have g := hr.mul hc (get k hk2 _ _ _ _ _ c1 d1 c2 c3 d3) (DegOk.mono_mul (by rw [← hs]; exact hsum _) hda)
        (DegOk.mono_mul (by rw [← hs]; exact hsum _) hdb) c4 d4
      rw [hs]; exact g)
  rwa [List.take_of_length_le (le_refl _)] at s

variable [Zero V] [Add V] [SMul K V]

/-- adding one basis spline times a control point -/
theorem accumulate_cp {ret : Spline V} {T : Spline K} (hr : ret.WF) (hT : T.WF) (hd : T.degrees = ret.degrees) {y : M V} {v : V} (hy : y = .ok v) :
    ∃ c, loop ret.ncp (fun c cps => do
        let x ← rd cps c
        let b ← rd T.cps c
        let y ← y
        wr cps c (x + b • y)) ret.cps = .ok c ∧ WF { ret with cps := c } ∧
      ∀ idx, ValidIdx ret.degrees idx → cp { ret with cps := c } idx = ret.cp idx + T.cp idx • v := by
  subst hy
  have hrt := cps_tab0 hr
  have hTt := cps_tab0 hT
  rw [hd] at hTt
  refine ⟨tab (size ret.degrees) (fun i => ret.cps.getD i 0 + T.cps.getD i 0 • v), ?_, hr.setCps (by simp), fun idx hv => ?_⟩
  · rw [hr.ncp_eq]
    conv_lhs => rw [hrt]
    obtain ⟨m, e1, H, rfl, e2, e3⟩ := loop_inv (n := size ret.degrees) (s := tab (size ret.degrees) (fun i => ret.cps.getD i 0))
      (f := fun c cps => do
        let x ← rd cps c
        let b ← rd T.cps c
        let y ← (.ok v : M V)
        wr cps c (x + b • y))
      (P := fun j m => ∃ H, m = tab (size ret.degrees) H ∧
        (∀ i, i < j → H i = ret.cps.getD i 0 + T.cps.getD i 0 • v) ∧
        (∀ i, j ≤ i → H i = ret.cps.getD i 0))
      ⟨_, rfl, fun i hi => by omega, fun i _ => rfl⟩
      (by
        rintro j hj _ ⟨H, rfl, e2, e3⟩
        rw [rd_tab _ hj]
        simp only [bind_ok]
        rw [show rd T.cps j = .ok (T.cps.getD j 0) by conv_lhs => rw [hTt, rd_tab _ hj]]
        simp only [bind_ok]
        refine ⟨_, wr_tab _ _ hj, _, rfl, ?_, ?_⟩
        · intro i hi
          by_cases hij : i = j
          · subst hij; rw [Function.update_self, e3 i le_rfl]
          · rw [Function.update_of_ne hij]; exact e2 i (by omega)
        · intro i hi
          rw [Function.update_of_ne (by omega)]; exact e3 i (by omega))
    rw [e1]
    congr 1
    exact tab_congr (fun i hi => e2 i hi)
  · have hv' : ValidIdx ({ ret with cps := tab (size ret.degrees) (fun i => ret.cps.getD i 0 + T.cps.getD i 0 • v) } : Spline V).degrees idx := hv
    rw [cp_tab rfl hv']
    unfold cp
    rw [hd]

theorem glued_zero {da db : List ℕ} {q : ℕ} (hpos : d < da.length) (hq : db = da.set d q) {x y : Spline V} (hx : ofDegrees da = .ok x) (hy : ofDegrees db = .ok y) :
    Glued d sa sb x y ∧ x.degrees = da ∧ y.degrees = db := by
  obtain ⟨x', a1, a2, a3, a4⟩ := ofDegrees_ok (V := V) (ps := da) (by omega)
  obtain ⟨y', b1, b2, b3, b4⟩ := ofDegrees_ok (V := V) (ps := db) (by rw [hq]; simp; omega)
  rw [a1] at hx; rw [b1] at hy; cases hx; cases hy
  refine ⟨?_, a3, b3⟩
  rw [glued_iff]
  have hp : x.degrees[d]? = some da[d] := by rw [a3]; exact List.getElem?_eq_getElem hpos
  refine ⟨a2, b2, da[d], q, hp, by rw [a3, b3, hq], fun idx hv => ?_⟩
  rw [cp_tab (F := fun _ => 0) (by rw [a4, a3]) (validIdx_face hp hv sa),
    cp_tab (F := fun _ => 0) (by rw [b4, b3]) (by rw [b3, hq, ← a3]; exact validIdx_set hv d q _ (faceIndex_le sb q))]

theorem glued_composeNumerator {cfg : Cfg} (hc : cfg.Ok) {s : Spline V} (hs : s.WF) {ex ex' : ℕ → M (Spline K)} {inv inv' : Spline K → M (Spline K)}
    {q : ℕ} (hpos : d < qa.length) (hq : qb = qa.set d q)
    (hex : ∀ e, e < s.degrees.length → ∀ x x', ex e = .ok x → ex' e = .ok x' → GluedPair d sa sb qa qb 1 x x')
    (hinv : ∀ x x' y y', GluedPair d sa sb qa qb 1 x x' → inv x = .ok y → inv' x' = .ok y' → GluedPair d sa sb qa qb 1 y y')
    (hda : DegOk cfg (qa.map (s.degrees.sum * ·))) (hdb : DegOk cfg (qb.map (s.degrees.sum * ·))) {r r' : Spline V}
    (h : composeNumerator cfg s qa ex inv = .ok r) (h' : composeNumerator cfg s qb ex' inv' = .ok r') : Glued d sa sb r r' := by
  unfold composeNumerator at h h'
  have hdeg : ∀ q : List ℕ, composeDegrees s.degrees q = q.map (s.degrees.sum * ·) := by
    intro q; unfold composeDegrees; congr 1; funext a; exact mul_comm _ _
  simp only [bind_eq_ok, hdeg] at h h'
  obtain ⟨D, d1, b, d2, d3⟩ := h
  obtain ⟨D', d1', b', d2', d3'⟩ := h'
  have hT := glued_composeBases hc hex hinv hda hdb d2 d2'
  obtain ⟨g0, g1, g2⟩ := glued_zero (V := V) (d := d) (sa := sa) (sb := sb) (da := qa.map (s.degrees.sum * ·)) (q := s.degrees.sum * q) (by simpa using hpos)
    (by rw [hq, List.map_set]) d1 d1'
  have key := loop_two (P := fun _ (x y : Spline V) => Glued d sa sb x y ∧ x.degrees = qa.map (s.degrees.sum * ·) ∧ y.degrees = qb.map (s.degrees.sum * ·))
    d3 d3' ⟨g0, g1, g2⟩ (by
      rintro k hk x y x' y' ⟨hg, hx, hy⟩ f1 f2
      simp only [bind_eq_ok] at f1 f2
      obtain ⟨i, a1, t, a2, -, a3, c, a4, a5⟩ := f1
      obtain ⟨i', b1, t', b2, -, b3, c', b4, b5⟩ := f2
      rw [localToGlobal_ok hs] at a1 b1
      cases a1; cases b1
      have gt := glued_composeTensor hc hT hs.dim_pos (unflat_valid s.degrees k) hda hdb a2 b2
      have hk' : k < s.cps.length := by rw [hs.cps_len, ← hs.ncp_eq]; exact hk
      have hyk : rd s.cps k = .ok s.cps[k] := rd_getElem hk'
      obtain ⟨c1, q1, q2, q3⟩ := accumulate_cp (K := K) hg.1 gt.glued.1 (by rw [gt.left, hx]) hyk
      obtain ⟨c2, q1', q2', q3'⟩ := accumulate_cp (K := K) hg.2.1 gt.glued.2.1 (by rw [gt.right, hy]) hyk
      rw [q1] at a4; rw [q1'] at b4
      cases a4; cases b4; cases a5; cases b5
      refine ⟨?_, hx, hy⟩
      have gt' := gt.glued
      rw [glued_iff] at hg gt' ⊢
      obtain ⟨w1, w2, p0, q0, hp0, hq0, hl0⟩ := hg
      obtain ⟨v1, v2, p1, q1, hp1, hq1, hl1⟩ := gt'
      have hdl := (List.getElem?_eq_some_iff.mp hp0).1
      have ep : p1 = p0 := by rw [gt.left, ← hx, hp0] at hp1; exact (Option.some.inj hp1).symm
      have eq : q1 = q0 := by
        rw [gt.right, gt.left, ← hx, ← hy, hq0] at hq1
        have := congrArg (fun l : List ℕ => l[d]?) hq1
        rw [List.getElem?_set_self hdl, List.getElem?_set_self hdl] at this
        exact (Option.some.inj this).symm
      subst ep; subst eq
      refine ⟨q2, q2', p1, q1, hp0, hq0, fun idx hv => ?_⟩
      have hv' : ValidIdx x.degrees idx := hv
      rw [q3 _ (validIdx_face hp0 hv' sa), q3' _ (by rw [hq0]; exact validIdx_set hv' d q1 _ (faceIndex_le sb q1)), hl0 idx hv',
        hl1 idx (by rw [gt.left, ← hx]; exact hv')])
  exact key.1

end scalar

section
variable [Zero K] [One K] [Add K] [Sub K] [Mul K] [Neg K] [Div K] [NatCast K] [LT K] [DecidableLT K] [Zero V] [Add V] [SMul K V]

theorem glued_power {cfg : Cfg} (hc : cfg.Ok) {a b ra rb : Spline K} (h : Glued d sa sb a b) {k : ℕ} (hda : DegOk cfg (a.degrees.map (k * ·)))
    (hdb : DegOk cfg (b.degrees.map (k * ·))) (ea : raisePower cfg a k = .ok ra) (eb : raisePower cfg b k = .ok rb) : Glued d sa sb ra rb :=
  (glued_powerAux hc (qa := a.degrees) (qb := b.degrees) ⟨h, by simp, by simp⟩ _ _ _ _ hda hdb ea eb).glued

theorem glued_compose [Zero W] [Coords K W] {cfg : Cfg} (hc : cfg.Ok) {s : Spline V} (hs : s.WF) {a b : Spline W} {ra rb : Spline V}
    (h : Glued d sa sb a b) (hdim : s.degrees.length = Coords.n K W) (hda : DegOk cfg (a.degrees.map (s.degrees.sum * ·)))
    (hdb : DegOk cfg (b.degrees.map (s.degrees.sum * ·))) (ea : compose K cfg s a = .ok ra) (eb : compose K cfg s b = .ok rb) :
    Glued d sa sb ra rb := by
  unfold compose at ea eb
  rw [bind_eq_ok] at ea eb
  obtain ⟨f, -, e2⟩ := ea
  obtain ⟨f', -, e2'⟩ := eb
  cases f with
  | false => cases e2
  | true =>
    cases f' with
    | false => cases e2'
    | true =>
      simp only [Bool.not_true, Bool.false_eq_true, if_false] at e2 e2'
      have h' := h
      obtain ⟨ha, hb, p, q, hp, hq, -⟩ := h'
      refine glued_composeNumerator hc hs (List.getElem?_eq_some_iff.mp hp).1 hq ?_ ?_ hda hdb e2 e2'
      · intro e he x x' hx hx'
        have he' : e < Coords.n K W := by rw [← hdim]; exact he
        refine ⟨glued_extract h he' hx hx', ?_, ?_⟩
        · have := extractDimension_eq (K := K) ha ⟨e, he'⟩
          rw [this] at hx; cases hx; simp
        · have := extractDimension_eq (K := K) hb ⟨e, he'⟩
          rw [this] at hx'; cases hx'; simp
      · intro x x' y y' hxx hy hy'
        have hps : ∀ {u v : Spline K}, u.WF → pointSub (1 : K) u = .ok v → v.degrees = u.degrees := by
          intro u v hu huv
          unfold pointSub subPoint at huv
          rw [mapCps_ok hu] at huv
          simp only [bind_ok] at huv
          rw [negOp_ok (hu.map _)] at huv
          cases huv; rfl
        exact ⟨glued_pointSub hxx.glued _ hy hy', by rw [hps hxx.glued.1 hy, hxx.left], by rw [hps hxx.glued.2.1 hy', hxx.right]⟩

/-- cuts along the face -/
theorem glued_split {a b : Spline V} {la ra lb rb : Spline V} {e : ℕ} (hed : e ≠ d) (h : Glued d sa sb a b) (he : e < a.degrees.length) {z : K}
    (ea : a.splitAt z e = .ok (la, ra)) (eb : b.splitAt z e = .ok (lb, rb)) :
    Glued d sa sb la lb ∧ Glued d sa sb ra rb ∧ la.degrees = a.degrees ∧ ra.degrees = a.degrees := by
  have hz : 0 < z ∧ z < 1 := by
    by_contra hz
    unfold splitAt at ea
    rw [if_pos hz] at ea
    cases ea
  have hp : a.degrees[e]? = some a.degrees[e] := List.getElem?_eq_getElem he
  have hp' : b.degrees[e]? = some a.degrees[e] := by rw [glued_deg h hed, hp]
  obtain ⟨x, y, x1, x2, x3, x4, x5, x6⟩ := splitAt_cp h.1 hp hz
  obtain ⟨x', y', x1', x2', x3', x4', x5', x6'⟩ := splitAt_cp h.2.1 hp' hz
  rw [x1] at ea; rw [x1'] at eb
  cases ea; cases eb
  rw [glued_iff] at h
  obtain ⟨ha, hb, p, q, hpd, hq, hl⟩ := h
  have key : ∀ idx, ValidIdx a.degrees idx → (fun j => a.cp ((idx.set d (faceIndex sa p)).set e j)) = (fun j => a.cp ((idx.set e j).set d (faceIndex sa p))) ∧
      (fun j => b.cp ((idx.set d (faceIndex sb q)).set e j)) = (fun j => b.cp ((idx.set e j).set d (faceIndex sb q))) := by
    intro idx _
    exact ⟨by funext j; rw [List.set_comm _ _ (Ne.symm hed)], by funext j; rw [List.set_comm _ _ (Ne.symm hed)]⟩
  have hcong : ∀ idx, ValidIdx a.degrees idx → ∀ j, j ≤ a.degrees[e] → a.cp ((idx.set e j).set d (faceIndex sa p)) = b.cp ((idx.set e j).set d (faceIndex sb q)) := by
    intro idx hv j hj
    refine hl _ ?_
    have := validIdx_set hv e _ j hj
    rwa [set_deg hp] at this
  have htri : ∀ (P Q : ℕ → V) (n : ℕ), (∀ j, j ≤ n → P j = Q j) → ∀ k i, i + k ≤ n → triangle z P k i = triangle z Q k i := by
    intro P Q n hPQ k
    induction k with
    | zero => intro i hi; exact hPQ i (by omega)
    | succ k ih => intro i hi; simp only [triangle]; rw [ih i (by omega), ih (i + 1) (by omega)]
  have get : ∀ idx, ValidIdx a.degrees idx → ∃ i, idx[e]? = some i ∧ i ≤ a.degrees[e] := by
    intro idx hv
    have hel : e < idx.length := by rw [hv.length]; exact he
    exact ⟨_, List.getElem?_eq_getElem hel, (validIdx_iff.mp hv).2 e _ _ (List.getElem?_eq_getElem hel) hp⟩
  refine ⟨?_, ?_, x4, x5⟩
  · rw [glued_iff]
    refine ⟨x2, x2', p, q, by rw [x4]; exact hpd, by rw [x4, x4', hq], fun idx hv => ?_⟩
    rw [x4] at hv
    obtain ⟨i, hi, hi'⟩ := get idx hv
    rw [(x6 _ i (validIdx_face hpd hv sa) (by rw [List.getElem?_set_ne (Ne.symm hed)]; exact hi)).1,
      (x6' _ i (by rw [hq]; exact validIdx_set hv d q _ (faceIndex_le sb q)) (by rw [List.getElem?_set_ne (Ne.symm hed)]; exact hi)).1,
      (key idx hv).1, (key idx hv).2]
    exact htri _ _ _ (hcong idx hv) _ _ (by omega)
  · rw [glued_iff]
    refine ⟨x3, x3', p, q, by rw [x5]; exact hpd, by rw [x5, x5', hq], fun idx hv => ?_⟩
    rw [x5] at hv
    obtain ⟨i, hi, hi'⟩ := get idx hv
    rw [(x6 _ i (validIdx_face hpd hv sa) (by rw [List.getElem?_set_ne (Ne.symm hed)]; exact hi)).2,
      (x6' _ i (by rw [hq]; exact validIdx_set hv d q _ (faceIndex_le sb q)) (by rw [List.getElem?_set_ne (Ne.symm hed)]; exact hi)).2,
      (key idx hv).1, (key idx hv).2]
    exact htri _ _ _ (hcong idx hv) _ _ (by omega)

theorem glued_splitMany {a b : Spline V} {e : ℕ} (hed : e ≠ d) (h : Glued d sa sb a b) (he : e < a.degrees.length) {zs : List K}
    {l l' : List (Spline V)} (ea : a.splitAtMany zs e = .ok l) (eb : b.splitAtMany zs e = .ok l') :
    ∀ (i : ℕ) x y, l[i]? = some x → l'[i]? = some y → Glued d sa sb x y := by
  unfold splitAtMany at ea eb
  by_cases hs : isSorted zs = true
  · simp only [hs, Bool.not_true, Bool.false_eq_true, if_false] at ea eb
    by_cases hz : zs.length = 0
    · simp only [hz, if_true] at ea eb
      cases ea; cases eb
      intro i x y hx hy
      cases i with
      | zero => simp at hx hy; subst hx; subst hy; exact h
      | succ i => simp at hx
    · simp only [hz, if_false, bind_eq_ok] at ea eb
      obtain ⟨z, z1, ⟨u, v⟩, z2, ⟨r1, r2⟩, z3, z4⟩ := ea
      obtain ⟨z', z1', ⟨u', v'⟩, z2', ⟨r1', r2'⟩, z3', z4'⟩ := eb
      rw [z1] at z1'; cases z1'
      obtain ⟨g1, g2, g3, g4⟩ := glued_split hed h he z2 z2'
      have key := loopFrom_two (P := fun _ (r r' : List (Spline V) × (Spline V × Spline V)) => r'.1.length = r.1.length ∧
          (∀ (i : ℕ) x y, r.1[i]? = some x → r'.1[i]? = some y → Glued d sa sb x y) ∧ Glued d sa sb r.2.2 r'.2.2 ∧ r.2.2.degrees = a.degrees) (by omega) z3 z3'
        ⟨rfl, by
          intro i x y hx hy
          cases i with
          | zero => simp at hx hy; subst hx; subst hy; exact g1
          | succ i => simp at hx, g2, g4⟩ (by
          rintro k hk1 hk2 ⟨x, x2⟩ ⟨y, y2⟩ x' y' ⟨h1, h2, h3, h4⟩ f1 f2
          simp only [bind_eq_ok] at f1 f2 h1 h2 h3 h4
          obtain ⟨w, w1, wp, w2, ⟨s1, s2⟩, w3, w4⟩ := f1
          obtain ⟨w', w1', wp', w2', ⟨s1', s2'⟩, w3', w4'⟩ := f2
          rw [w1] at w1'; cases w1'
          rw [w2] at w2'; cases w2'
          obtain ⟨q1, q2, q3, q4⟩ := glued_split hed h3 (by rw [h4]; exact he) w3 w3'
          cases w4; cases w4'
          refine ⟨by simp [h1], ?_, q2, by rw [q4, h4]⟩
          intro i u v hu hv
          simp only at hu hv
          rw [List.getElem?_append] at hu hv
          rw [h1] at hv
          split at hu
          · rename_i hlt; rw [if_pos hlt] at hv; exact h2 i u v hu hv
          · rename_i hlt
            rw [if_neg hlt] at hv
            rw [List.getElem?_singleton] at hu hv
            split at hu
            · rename_i h0; rw [if_pos h0] at hv; cases hu; cases hv; exact q1
            · cases hu)
      cases z4; cases z4'
      obtain ⟨h1, h2, h3, -⟩ := key
      intro i u v hu hv
      simp only at hu hv h1 h2 h3
      rw [List.getElem?_append] at hu hv
      rw [h1] at hv
      split at hu
      · rename_i hlt; rw [if_pos hlt] at hv; exact h2 i u v hu hv
      · rename_i hlt
        rw [if_neg hlt] at hv
        rw [List.getElem?_singleton] at hu hv
        split at hu
        · rename_i h0; rw [if_pos h0] at hv; cases hu; cases hv; exact h3
        · cases hu
  · simp only [hs] at ea
    cases ea

end

end Spline
end Bezman
