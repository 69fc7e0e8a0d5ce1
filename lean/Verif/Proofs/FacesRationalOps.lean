import Verif.Spec.FacesRational
import Verif.Proofs.FacesExpr
import Verif.Proofs.AnyArithRational

set_option linter.unusedSectionVars false

/-! # Operations on rational patches that share a face -/

namespace Bezman
open Spec Props

theorem rd_map_face {α β : Type} (f : α → β) (l : List α) (i : ℕ) : rd (l.map f) i = (rd l i).map f := by
  unfold rd
  rw [List.getElem?_map]
  cases l[i]? <;> rfl

namespace RSpline
variable {K V W U : Type} [Zero K] [One K] [Add K] [Sub K] [Mul K] [Neg K] [Div K] [NatCast K]
  [Zero V] [Add V] [Sub V] [Neg V] [SMul K V] [Zero U] [Add U] [Sub U] [Neg U] [SMul K U] [Zero W]
  {d : ℕ} {sa sb : Bool}

theorem ofSplines_inv {n : Spline V} {w : Spline K} {r : RSpline K V} (h : ofSplines n w = .ok r) : r = ⟨n, w⟩ := by
  unfold ofSplines at h
  rw [bind_eq_ok] at h
  obtain ⟨-, -, h⟩ := h
  cases h; rfl

theorem rglued_ofSplines {n n' : Spline V} {w w' : Spline K} {r r' : RSpline K V} (hn : Glued d sa sb n n') (hw : Glued d sa sb w w')
    (h : ofSplines n w = .ok r) (h' : ofSplines n' w' = .ok r') : RGlued d sa sb r r' := by
  rw [ofSplines_inv h, ofSplines_inv h']
  exact ⟨hn, hw⟩

theorem ofSpline_inv {s : Spline V} (hs : s.WF) {r : RSpline K V} (h : ofSpline s = .ok r) :
    r = ⟨s, ⟨s.degrees, s.ncp, s.offsets, s.cps.map (fun _ => 1)⟩⟩ := by
  unfold ofSpline at h
  rw [bind_eq_ok] at h
  obtain ⟨w, h1, h⟩ := h
  rw [bind_eq_ok] at h
  obtain ⟨-, -, h⟩ := h
  cases h
  have e : (⟨s.degrees, s.ncp, s.offsets, s.cps.map (fun _ => (1 : K))⟩ : Spline K) = w := by
    have hw : (⟨s.degrees, s.ncp, s.offsets, s.cps.map (fun _ => (1 : K))⟩ : Spline K).WF := hs.map _
    have := Spline.ofPoints_self hw
    have e2 : s.cps.map (fun _ => (1 : K)) = List.replicate s.ncp 1 := by
      rw [List.map_const', hs.cps_len, hs.ncp_eq]
    simp only [e2] at this
    rw [this] at h1
    rw [e2]
    exact Except.ok.inj h1
  rw [e]

theorem rglued_ofSpline {a b : Spline V} {ra rb : RSpline K V} (h : Glued d sa sb a b) (ea : ofSpline a = .ok ra) (eb : ofSpline b = .ok rb) :
    RGlued d sa sb ra rb := by
  rw [ofSpline_inv h.1 ea, ofSpline_inv h.2.1 eb]
  exact ⟨h, Spline.glued_map h _⟩

variable {a b ra rb : RSpline K V}

theorem rglued_neg (h : RGlued d sa sb a b) (ea : a.negOp = .ok ra) (eb : b.negOp = .ok rb) : RGlued d sa sb ra rb := by
  unfold negOp at ea eb
  rw [bind_eq_ok] at ea eb
  obtain ⟨n, e1, e2⟩ := ea
  obtain ⟨n', f1, f2⟩ := eb
  exact rglued_ofSplines (Spline.glued_neg h.1 e1 f1) h.2 e2 f2

theorem rglued_smul (h : RGlued d sa sb a b) (c : K) (ea : a.smulOp c = .ok ra) (eb : b.smulOp c = .ok rb) : RGlued d sa sb ra rb := by
  unfold smulOp at ea eb
  rw [bind_eq_ok] at ea eb
  obtain ⟨n, e1, e2⟩ := ea
  obtain ⟨n', f1, f2⟩ := eb
  exact rglued_ofSplines (Spline.glued_mapCps h.1 _ e1 f1) h.2 e2 f2

/-- the loop that moves the control points, as a loop over two lists of points -/
theorem shift_zip (g : V → V → V) (n : ℕ) (x : List V) (w : List K) (v : V) :
    loop n (fun i cps => do
      let x ← rd cps i
      let w ← rd w i
      wr cps i (g x (w • v))) x = Spline.zipCps n g x (w.map (· • v)) := by
  unfold Spline.zipCps
  congr 1
  funext i cps
  rw [rd_map_face]
  cases rd cps i with
  | error _ => rfl
  | ok y => cases rd w i <;> rfl

theorem rglued_shift {da db : List ℕ} (h : RGlued d sa sb a b) (ha : HasRShape da a) (hb : HasRShape db b) (g : V → V → V) (v : V) {c c' : List V}
    (ea : Spline.zipCps a.num.ncp g a.num.cps (a.wt.cps.map (· • v)) = .ok c)
    (eb : Spline.zipCps b.num.ncp g b.num.cps (b.wt.cps.map (· • v)) = .ok c') :
    RGlued d sa sb ⟨{ a.num with cps := c }, a.wt⟩ ⟨{ b.num with cps := c' }, b.wt⟩ :=
  ⟨Spline.glued_zip h.1 (Spline.glued_map h.2 (fun w => w • v)) (ha.2.2.trans ha.1.2.symm) (hb.2.2.trans hb.1.2.symm) g ea eb, h.2⟩

theorem rglued_addPoint {da db : List ℕ} (h : RGlued d sa sb a b) (ha : HasRShape da a) (hb : HasRShape db b) (v : V)
    (ea : a.addPoint v = .ok ra) (eb : b.addPoint v = .ok rb) : RGlued d sa sb ra rb := by
  unfold addPoint at ea eb
  rw [bind_eq_ok] at ea eb
  obtain ⟨n, e1, e2⟩ := ea
  obtain ⟨n', f1, f2⟩ := eb
  rw [ofSplines_inv e1] at e2
  rw [ofSplines_inv f1] at f2
  unfold addPointAssign at e2 f2
  simp only [shift_zip] at e2 f2
  simp only [bind_eq_ok] at e2 f2
  obtain ⟨c, e3, -, -, e4⟩ := e2
  obtain ⟨c', f3, -, -, f4⟩ := f2
  cases e4; cases f4
  exact rglued_shift h ha hb _ v e3 f3

theorem rglued_subPoint {da db : List ℕ} (h : RGlued d sa sb a b) (ha : HasRShape da a) (hb : HasRShape db b) (v : V)
    (ea : a.subPoint v = .ok ra) (eb : b.subPoint v = .ok rb) : RGlued d sa sb ra rb := by
  unfold subPoint at ea eb
  rw [bind_eq_ok] at ea eb
  obtain ⟨n, e1, e2⟩ := ea
  obtain ⟨n', f1, f2⟩ := eb
  rw [ofSplines_inv e1] at e2
  rw [ofSplines_inv f1] at f2
  unfold subPointAssign at e2 f2
  simp only [shift_zip] at e2 f2
  simp only [bind_eq_ok] at e2 f2
  obtain ⟨c, e3, e4⟩ := e2
  obtain ⟨c', f3, f4⟩ := f2
  cases e4; cases f4
  exact rglued_shift h ha hb _ v e3 f3

theorem rglued_elevate {da db : List ℕ} (h : RGlued d sa sb a b) (ha : HasRShape da a) (hb : HasRShape db b) {e : ℕ} (he : e < da.length)
    (hs : size (da.modify e (· + 1)) < 2 ^ 31) (hs' : size (db.modify e (· + 1)) < 2 ^ 31)
    (ea : a.orderElevate e = .ok ra) (eb : b.orderElevate e = .ok rb) : RGlued d sa sb ra rb := by
  unfold orderElevate at ea eb
  simp only [bind_eq_ok] at ea eb
  obtain ⟨n, e1, w, e2, -, -, e3⟩ := ea
  obtain ⟨n', f1, w', f2, -, -, f3⟩ := eb
  cases e3; cases f3
  exact ⟨Spline.glued_elevateAny h.1 (by rw [ha.1.2]; exact he) (by rw [ha.1.2]; exact hs) (by rw [hb.1.2]; exact hs') e1 f1,
    Spline.glued_elevateAny h.2 (by rw [ha.2.2]; exact he) (by rw [ha.2.2]; exact hs) (by rw [hb.2.2]; exact hs') e2 f2⟩

theorem rglued_mul {cfg : Cfg} (hc : cfg.Ok) {mul : V → W → U} {a b : RSpline K V} {a' b' : RSpline K W} {ra rb : RSpline K U}
    {da da' db db' : List ℕ} (ha : HasRShape da a) (ha' : HasRShape da' a') (hb : HasRShape db b) (hb' : HasRShape db' b')
    (h : RGlued d sa sb a b) (h' : RGlued d sa sb a' b') (hdim : da'.length = da.length)
    (hda : ∀ p ∈ sumDegrees da da', p < cfg.maxBinom) (hdb : ∀ p ∈ sumDegrees db db', p < cfg.maxBinom)
    (ea : mulOp cfg mul a a' = .ok ra) (eb : mulOp cfg mul b b' = .ok rb) : RGlued d sa sb ra rb := by
  unfold mulOp at ea eb
  simp only [bind_eq_ok] at ea eb
  obtain ⟨n, e1, w, e2, e3⟩ := ea
  obtain ⟨n', f1, w', f2, f3⟩ := eb
  refine rglued_ofSplines ?_ ?_ e3 f3
  · exact (Spline.glued_mul (K := K) hc h.1 h'.1 (by rw [ha.1.2, ha'.1.2]; exact hdim) (by rw [ha.1.2, ha'.1.2]; exact hda)
      (by rw [hb.1.2, hb'.1.2]; exact hdb) e1 f1).1
  · exact (Spline.glued_mul (K := K) hc h.2 h'.2 (by rw [ha.2.2, ha'.2.2]; exact hdim) (by rw [ha.2.2, ha'.2.2]; exact hda)
      (by rw [hb.2.2, hb'.2.2]; exact hdb) e2 f2).1

section
variable [LT K] [DecidableLT K]

theorem rglued_split {e : ℕ} (hed : e ≠ d) {da : List ℕ} (h : RGlued d sa sb a b) (ha : HasRShape da a) (he : e < da.length) {z : K}
    {p q : RSpline K V × RSpline K V} (ea : a.splitAt z e = .ok p) (eb : b.splitAt z e = .ok q) :
    RGlued d sa sb p.1 q.1 ∧ RGlued d sa sb p.2 q.2 ∧ HasRShape da p.2 := by
  unfold splitAt at ea eb
  simp only [bind_eq_ok] at ea eb
  obtain ⟨⟨n1, n2⟩, e1, ⟨w1, w2⟩, e2, r1, e3, r2, e4, e5⟩ := ea
  obtain ⟨⟨n1', n2'⟩, f1, ⟨w1', w2'⟩, f2, r1', f3, r2', f4, f5⟩ := eb
  cases e5; cases f5
  obtain ⟨g1, g2, g3, g4⟩ := Spline.glued_split hed h.1 (by rw [ha.1.2]; exact he) e1 f1
  obtain ⟨g1', g2', g3', g4'⟩ := Spline.glued_split hed h.2 (by rw [ha.2.2]; exact he) e2 f2
  refine ⟨rglued_ofSplines g1 g1' e3 f3, rglued_ofSplines g2 g2' e4 f4, ?_⟩
  simp only
  rw [ofSplines_inv e4]
  exact ⟨⟨g2.1, g4.trans ha.1.2⟩, g2'.1, g4'.trans ha.2.2⟩

theorem rglued_splitMany {e : ℕ} (hed : e ≠ d) {da : List ℕ} (h : RGlued d sa sb a b) (ha : HasRShape da a) (he : e < da.length) {zs : List K}
    {l l' : List (RSpline K V)} (ea : a.splitAtMany zs e = .ok l) (eb : b.splitAtMany zs e = .ok l') :
    ∀ (i : ℕ) x y, l[i]? = some x → l'[i]? = some y → RGlued d sa sb x y := by
  unfold splitAtMany at ea eb
  by_cases hs : Spline.isSorted zs = true
  · simp only [hs, Bool.not_true, Bool.false_eq_true, if_false] at ea eb
    by_cases hz : zs.length = 0
    · simp only [hz, if_true] at ea eb
      cases ea; cases eb
      intro i x y hx hy
      cases i with
      | zero => simp at hx hy; subst hx; subst hy; exact h
      | succ i => simp at hx
    · simp only [hz, if_false, bind_eq_ok] at ea eb
      obtain ⟨z, z1, ⟨u, v⟩, z2, ⟨r1, r2⟩, z3, z4⟩ := ea
      obtain ⟨z', z1', ⟨u', v'⟩, z2', ⟨r1', r2'⟩, z3', z4'⟩ := eb
      rw [z1] at z1'; cases z1'
      obtain ⟨g1, g2, g4⟩ := rglued_split hed h ha he z2 z2'
      have key := loopFrom_two (P := fun _ (r r' : List (RSpline K V) × (RSpline K V × RSpline K V)) => r'.1.length = r.1.length ∧
          (∀ (i : ℕ) x y, r.1[i]? = some x → r'.1[i]? = some y → RGlued d sa sb x y) ∧ RGlued d sa sb r.2.2 r'.2.2 ∧ HasRShape da r.2.2) (by omega) z3 z3'
        ⟨rfl, by
          intro i x y hx hy
          cases i with
          | zero => simp at hx hy; subst hx; subst hy; exact g1
          | succ i => simp at hx, g2, g4⟩ (by
          rintro k hk1 hk2 ⟨x, x2⟩ ⟨y, y2⟩ x' y' ⟨h1, h2, h3, h4⟩ f1 f2
          simp only [bind_eq_ok] at f1 f2 h1 h2 h3 h4
          obtain ⟨w, w1, wp, w2, ⟨s1, s2⟩, w3, w4⟩ := f1
          obtain ⟨w', w1', wp', w2', ⟨s1', s2'⟩, w3', w4'⟩ := f2
          rw [w1] at w1'; cases w1'
          rw [w2] at w2'; cases w2'
          obtain ⟨q1, q2, q4⟩ := rglued_split hed h3 h4 he w3 w3'
          cases w4; cases w4'
          refine ⟨by simp [h1], ?_, q2, q4⟩
          intro i u v hu hv
          simp only at hu hv
          rw [List.getElem?_append] at hu hv
          rw [h1] at hv
          split at hu
          · rename_i hlt; rw [if_pos hlt] at hv; exact h2 i u v hu hv
          · rename_i hlt
            rw [if_neg hlt] at hv
            rw [List.getElem?_singleton] at hu hv
            split at hu
            · rename_i h0; rw [if_pos h0] at hv; cases hu; cases hv; exact q1
            · cases hu)
      cases z4; cases z4'
      obtain ⟨h1, h2, h3, -⟩ := key
      intro i u v hu hv
      simp only at hu hv h1 h2 h3
      rw [List.getElem?_append] at hu hv
      rw [h1] at hv
      split at hu
      · rename_i hlt; rw [if_pos hlt] at hv; exact h2 i u v hu hv
      · rename_i hlt
        rw [if_neg hlt] at hv
        rw [List.getElem?_singleton] at hu hv
        split at hu
        · rename_i h0; rw [if_pos h0] at hv; cases hu; cases hv; exact h3
        · cases hu
  · simp only [hs] at ea
    cases ea

end

section
variable {cfg : Cfg} {a' b' : RSpline K V} {da da' db db' : List ℕ}

theorem rfits_inner {cfg : Cfg} {da da' : List ℕ} (h : RFits cfg da da') : Fits cfg (sumDegrees da da') (sumDegrees da da') :=
  fits_self h.rounds h.rounds2 h.small

theorem rfits_outer {cfg : Cfg} {da : List ℕ} (h : RFits cfg da da) : Fits cfg da da :=
  fits_self (le_sumDegrees h.dims _ h.rounds) h.rounds2 (lt_of_le_of_lt (size_le_sumDegrees h.dims) h.small)

theorem same_degrees [BEq K] {a a' : RSpline K V} {da da' : List ℕ} (ha : HasRShape da a) (ha' : HasRShape da' a') (e : a.wt.eqOp a'.wt = true) :
    da = da' := by
  rw [← ha.2.2, ← ha'.2.2]; exact ((C34_pointwise a.wt a'.wt).mp e).1

/-- numerator and denominator of a sum with different weights -/
theorem rglued_cross (hc : cfg.Ok) (h : RGlued d sa sb a b) (h' : RGlued d sa sb a' b') (ha : HasRShape da a) (ha' : HasRShape da' a')
    (hb : HasRShape db b) (hb' : HasRShape db' b') (hf : RFits cfg da da') (hf' : RFits cfg db db') {x y x' y' : Spline V} {w w' : Spline K}
    (e1 : mulWeight' cfg a.num a'.wt = .ok x) (e2 : mulWeight cfg a.wt a'.num = .ok y) (e3 : Spline.mulScalar cfg a.wt a'.wt = .ok w)
    (f1 : mulWeight' cfg b.num b'.wt = .ok x') (f2 : mulWeight cfg b.wt b'.num = .ok y') (f3 : Spline.mulScalar cfg b.wt b'.wt = .ok w') :
    Glued d sa sb x x' ∧ Glued d sa sb y y' ∧ Glued d sa sb w w' ∧ HasShape (sumDegrees da da') x ∧ HasShape (sumDegrees da da') y ∧
      HasShape (sumDegrees db db') x' ∧ HasShape (sumDegrees db db') y' := by
  obtain ⟨g1, s1, t1⟩ := Spline.glued_mul (K := K) hc h.1 h'.2 (by rw [ha.1.2, ha'.2.2]; exact hf.dims) (by rw [ha.1.2, ha'.2.2]; exact hf.degs)
    (by rw [hb.1.2, hb'.2.2]; exact hf'.degs) e1 f1
  obtain ⟨g2, s2, t2⟩ := Spline.glued_mul (K := K) hc h.2 h'.1 (by rw [ha.2.2, ha'.1.2]; exact hf.dims) (by rw [ha.2.2, ha'.1.2]; exact hf.degs)
    (by rw [hb.2.2, hb'.1.2]; exact hf'.degs) e2 f2
  obtain ⟨g3, -, -⟩ := Spline.glued_mul (K := K) hc h.2 h'.2 (by rw [ha.2.2, ha'.2.2]; exact hf.dims) (by rw [ha.2.2, ha'.2.2]; exact hf.degs)
    (by rw [hb.2.2, hb'.2.2]; exact hf'.degs) e3 f3
  rw [ha.1.2, ha'.2.2] at s1
  rw [ha.2.2, ha'.1.2] at s2
  rw [hb.1.2, hb'.2.2] at t1
  rw [hb.2.2, hb'.1.2] at t2
  exact ⟨g1, g2, g3, ⟨g1.1, s1⟩, ⟨g2.1, s2⟩, ⟨g1.2.1, t1⟩, g2.2.1, t2⟩

theorem le_of_same {l : List ℕ} (i p q : ℕ) (h1 : l[i]? = some p) (h2 : l[i]? = some q) : q ≤ p := by
  rw [h1] at h2; exact (Option.some.inj h2).ge

variable [BEq K]

theorem rglued_addAssign (hc : cfg.Ok) (h : RGlued d sa sb a b) (h' : RGlued d sa sb a' b') (ha : HasRShape da a) (ha' : HasRShape da' a')
    (hb : HasRShape db b) (hb' : HasRShape db' b') (hf : RFits cfg da da') (hf' : RFits cfg db db')
    (ht : a.wt.eqOp a'.wt = b.wt.eqOp b'.wt) (ea : addAssign cfg a a' = .ok ra) (eb : addAssign cfg b b' = .ok rb) : RGlued d sa sb ra rb := by
  unfold addAssign at ea eb
  rw [← ht] at eb
  cases e : a.wt.eqOp a'.wt with
  | true =>
    obtain rfl := same_degrees ha ha' e
    obtain rfl := same_degrees hb hb' (ht ▸ e)
    simp only [e, if_true, bind_eq_ok] at ea eb
    obtain ⟨n, e1, e2⟩ := ea
    obtain ⟨n', f1, f2⟩ := eb
    cases e2; cases f2
    exact ⟨Spline.glued_addAssign h.1 h'.1 ha.1 ha'.1 hb.1 hb'.1 (rfits_outer hf) (rfits_outer hf') e1 f1, h.2⟩
  | false =>
    simp only [e, Bool.false_eq_true, if_false, bind_eq_ok] at ea eb
    obtain ⟨x, e1, y, e2, n, e3, w, e4, -, -, e5⟩ := ea
    obtain ⟨x', f1, y', f2, n', f3, w', f4, -, -, f5⟩ := eb
    cases e5; cases f5
    obtain ⟨g1, g2, g3, s1, s2, t1, t2⟩ := rglued_cross hc h h' ha ha' hb hb' hf hf' e1 e2 e4 f1 f2 f4
    exact ⟨Spline.glued_addAssign g1 g2 s1 s2 t1 t2 (rfits_inner hf) (rfits_inner hf') e3 f3, g3⟩

theorem rglued_subAssign (hc : cfg.Ok) (h : RGlued d sa sb a b) (h' : RGlued d sa sb a' b') (ha : HasRShape da a) (ha' : HasRShape da' a')
    (hb : HasRShape db b) (hb' : HasRShape db' b') (hf : RFits cfg da da') (hf' : RFits cfg db db')
    (ht : a.wt.eqOp a'.wt = b.wt.eqOp b'.wt) (ea : subAssign cfg a a' = .ok ra) (eb : subAssign cfg b b' = .ok rb) : RGlued d sa sb ra rb := by
  unfold subAssign at ea eb
  rw [← ht] at eb
  cases e : a.wt.eqOp a'.wt with
  | true =>
    obtain rfl := same_degrees ha ha' e
    obtain rfl := same_degrees hb hb' (ht ▸ e)
    simp only [e, if_true, bind_eq_ok] at ea eb
    obtain ⟨n, e1, e2⟩ := ea
    obtain ⟨n', f1, f2⟩ := eb
    cases e2; cases f2
    exact ⟨Spline.glued_subAssign h.1 h'.1 ha.1 ha'.1 hb.1 hb'.1 (rfits_outer hf) (rfits_outer hf') e1 f1, h.2⟩
  | false =>
    simp only [e, Bool.false_eq_true, if_false, bind_eq_ok] at ea eb
    obtain ⟨x, e1, y, e2, n, e3, w, e4, -, -, e5⟩ := ea
    obtain ⟨x', f1, y', f2, n', f3, w', f4, -, -, f5⟩ := eb
    cases e5; cases f5
    obtain ⟨g1, g2, g3, s1, s2, t1, t2⟩ := rglued_cross hc h h' ha ha' hb hb' hf hf' e1 e2 e4 f1 f2 f4
    exact ⟨Spline.glued_subAssign g1 g2 s1 s2 t1 t2 (rfits_inner hf) (rfits_inner hf') e3 f3, g3⟩

theorem rglued_add (hcomm : ∀ x y : V, x + y = y + x) (hc : cfg.Ok) (h : RGlued d sa sb a b) (h' : RGlued d sa sb a' b') (ha : HasRShape da a)
    (ha' : HasRShape da' a') (hb : HasRShape db b) (hb' : HasRShape db' b') (hf : RFits cfg da da') (hf' : RFits cfg db db')
    (ht : a.wt.eqOp a'.wt = b.wt.eqOp b'.wt) (ea : addOp cfg a a' = .ok ra) (eb : addOp cfg b b' = .ok rb) : RGlued d sa sb ra rb := by
  unfold addOp at ea eb
  rw [← ht] at eb
  cases e : a.wt.eqOp a'.wt with
  | true =>
    obtain rfl := same_degrees ha ha' e
    obtain rfl := same_degrees hb hb' (ht ▸ e)
    simp only [e, if_true, bind_eq_ok] at ea eb
    obtain ⟨n, e1, e2⟩ := ea
    obtain ⟨n', f1, f2⟩ := eb
    rw [Spline.addOp_eq hcomm ha.1 ha'.1 (rfits_outer hf)] at e1
    rw [Spline.addOp_eq hcomm hb.1 hb'.1 (rfits_outer hf')] at f1
    exact rglued_ofSplines (Spline.glued_addAssign h.1 h'.1 ha.1 ha'.1 hb.1 hb'.1 (rfits_outer hf) (rfits_outer hf') e1 f1) h.2 e2 f2
  | false =>
    simp only [e, Bool.false_eq_true, if_false, bind_eq_ok] at ea eb
    obtain ⟨x, e1, y, e2, n, e3, w, e4, e5⟩ := ea
    obtain ⟨x', f1, y', f2, n', f3, w', f4, f5⟩ := eb
    obtain ⟨g1, g2, g3, s1, s2, t1, t2⟩ := rglued_cross hc h h' ha ha' hb hb' hf hf' e1 e2 e4 f1 f2 f4
    rw [Spline.addOp_eq hcomm s1 s2 (rfits_inner hf)] at e3
    rw [Spline.addOp_eq hcomm t1 t2 (rfits_inner hf')] at f3
    exact rglued_ofSplines (Spline.glued_addAssign g1 g2 s1 s2 t1 t2 (rfits_inner hf) (rfits_inner hf') e3 f3) g3 e5 f5

theorem rglued_sub (hc : cfg.Ok) (h : RGlued d sa sb a b) (h' : RGlued d sa sb a' b') (ha : HasRShape da a)
    (ha' : HasRShape da' a') (hb : HasRShape db b) (hb' : HasRShape db' b') (hf : RFits cfg da da') (hf' : RFits cfg db db')
    (ht : a.wt.eqOp a'.wt = b.wt.eqOp b'.wt) (ea : subOp cfg a a' = .ok ra) (eb : subOp cfg b b' = .ok rb) : RGlued d sa sb ra rb := by
  unfold subOp at ea eb
  rw [← ht] at eb
  cases e : a.wt.eqOp a'.wt with
  | true =>
    obtain rfl := same_degrees ha ha' e
    obtain rfl := same_degrees hb hb' (ht ▸ e)
    simp only [e, if_true, bind_eq_ok] at ea eb
    obtain ⟨n, e1, e2⟩ := ea
    obtain ⟨n', f1, f2⟩ := eb
    rw [Spline.subOp_eq ha.1 ha'.1 (rfits_outer hf) le_of_same] at e1
    rw [Spline.subOp_eq hb.1 hb'.1 (rfits_outer hf') le_of_same] at f1
    exact rglued_ofSplines (Spline.glued_subAssign h.1 h'.1 ha.1 ha'.1 hb.1 hb'.1 (rfits_outer hf) (rfits_outer hf') e1 f1) h.2 e2 f2
  | false =>
    simp only [e, Bool.false_eq_true, if_false, bind_eq_ok] at ea eb
    obtain ⟨x, e1, y, e2, n, e3, w, e4, e5⟩ := ea
    obtain ⟨x', f1, y', f2, n', f3, w', f4, f5⟩ := eb
    obtain ⟨g1, g2, g3, s1, s2, t1, t2⟩ := rglued_cross hc h h' ha ha' hb hb' hf hf' e1 e2 e4 f1 f2 f4
    rw [Spline.subOp_eq s1 s2 (rfits_inner hf) le_of_same] at e3
    rw [Spline.subOp_eq t1 t2 (rfits_inner hf') le_of_same] at f3
    exact rglued_ofSplines (Spline.glued_subAssign g1 g2 s1 s2 t1 t2 (rfits_inner hf) (rfits_inner hf') e3 f3) g3 e5 f5

end

/-! ## Compositions -/

section
variable [Coords K W] {cfg : Cfg} {da db : List ℕ}

theorem glued_numeratorRational (hc : cfg.Ok) {s : Spline V} (hs : s.WF) {a b : RSpline K W} {r r' : Spline V} (h : RGlued d sa sb a b)
    (ha : HasRShape da a) (hb : HasRShape db b) (hdim : s.degrees.length = Coords.n K W) (hfa : ComposeFits cfg s.degrees da)
    (hfb : ComposeFits cfg s.degrees db)
    (ea : s.composeNumeratorRational cfg a = .ok r) (eb : s.composeNumeratorRational cfg b = .ok r') : Glued d sa sb r r' := by
  unfold Spline.composeNumeratorRational at ea eb
  obtain ⟨hn, hn', p, q, hp, hq, -⟩ := id h.1
  have hqs : b.num.degrees = a.num.degrees.set d q := hq
  refine Spline.glued_composeNumerator hc hs (List.getElem?_eq_some_iff.mp hp).1 hqs ?_ ?_ ?_ ?_ ea eb
  · intro e he x x' hx hx'
    have he' : e < Coords.n K W := by rw [← hdim]; exact he
    unfold extractDimension at hx hx'
    refine ⟨Spline.glued_extract h.1 he' hx hx', ?_, ?_⟩
    · have := Spline.extractDimension_eq (K := K) hn ⟨e, he'⟩
      rw [this] at hx; cases hx; simp
    · have := Spline.extractDimension_eq (K := K) hn' ⟨e, he'⟩
      rw [this] at hx'; cases hx'; simp
  · intro x x' y y' hxx hy hy'
    have f1 : Fits cfg da da := fits_self hfa.rounds hfa.rounds2 hfa.small
    have f2 : Fits cfg db db := fits_self hfb.rounds hfb.rounds2 hfb.small
    have s1 : HasShape da x := ⟨hxx.glued.1, by rw [hxx.left, ha.1.2]; simp⟩
    have s2 : HasShape db x' := ⟨hxx.glued.2.1, by rw [hxx.right, hb.1.2]; simp⟩
    obtain ⟨z, z1, z2⟩ := Spline.subOp_returns (K := K) cfg ha.2 s1 f1 le_of_same
    obtain ⟨z', z1', z2'⟩ := Spline.subOp_returns (K := K) cfg hb.2 s2 f2 le_of_same
    rw [maxDegrees_self] at z2 z2'
    rw [hy] at z1; cases z1
    rw [hy'] at z1'; cases z1'
    refine ⟨?_, by rw [z2.2, ha.1.2]; simp, by rw [z2'.2, hb.1.2]; simp⟩
    rw [Spline.subOp_eq ha.2 s1 f1 le_of_same] at hy
    rw [Spline.subOp_eq hb.2 s2 f2 le_of_same] at hy'
    exact Spline.glued_subAssign h.2 hxx.glued ha.2 s1 hb.2 s2 f1 f2 hy hy'
  · intro t ht
    rw [ha.1.2] at ht
    obtain ⟨q, hq, rfl⟩ := List.mem_map.mp ht
    exact hfa.result q hq
  · intro t ht
    rw [hb.1.2] at ht
    obtain ⟨q, hq, rfl⟩ := List.mem_map.mp ht
    exact hfb.result q hq

theorem rglued_composeRational (hc : cfg.Ok) {s : RSpline K V} {ds : List ℕ} (hs : HasRShape ds s) {a b : RSpline K W} {r r' : RSpline K V}
    (h : RGlued d sa sb a b) (ha : HasRShape da a) (hb : HasRShape db b) (hdim : ds.length = Coords.n K W)
    (hfa : ComposeFits cfg ds da) (hfb : ComposeFits cfg ds db)
    (ea : s.composeRational cfg a = .ok r) (eb : s.composeRational cfg b = .ok r') : RGlued d sa sb r r' := by
  unfold composeRational at ea eb
  simp only [bind_eq_ok] at ea eb
  obtain ⟨n, e1, w, e2, e3⟩ := ea
  obtain ⟨n', f1, w', f2, f3⟩ := eb
  refine rglued_ofSplines ?_ ?_ e3 f3
  · exact glued_numeratorRational hc hs.1.1 h ha hb (by rw [hs.1.2]; exact hdim) (by rw [hs.1.2]; exact hfa) (by rw [hs.1.2]; exact hfb) e1 f1
  · exact glued_numeratorRational hc hs.2.1 h ha hb (by rw [hs.2.2]; exact hdim) (by rw [hs.2.2]; exact hfa) (by rw [hs.2.2]; exact hfb) e2 f2

variable [LT K] [DecidableLT K]

theorem rglued_compose (hc : cfg.Ok) {s : RSpline K V} {ds : List ℕ} (hs : HasRShape ds s) {a b : Spline W} {r r' : RSpline K V}
    (h : Glued d sa sb a b) (ha : HasShape da a) (hb : HasShape db b) (hdim : ds.length = Coords.n K W)
    (hfa : ComposeFits cfg ds da) (hfb : ComposeFits cfg ds db)
    (ea : s.compose cfg a = .ok r) (eb : s.compose cfg b = .ok r') : RGlued d sa sb r r' := by
  have deg : ∀ {c : List ℕ}, ComposeFits cfg ds c → Spline.DegOk cfg (c.map (ds.sum * ·)) := by
    intro c hf t ht
    obtain ⟨q, hq, rfl⟩ := List.mem_map.mp ht
    exact hf.result q hq
  unfold compose at ea eb
  simp only [bind_eq_ok] at ea eb
  obtain ⟨n, e1, w, e2, e3⟩ := ea
  obtain ⟨n', f1, w', f2, f3⟩ := eb
  refine rglued_ofSplines ?_ ?_ e3 f3
  · exact Spline.glued_compose hc hs.1.1 h (by rw [hs.1.2]; exact hdim) (by rw [hs.1.2, ha.2]; exact deg hfa) (by rw [hs.1.2, hb.2]; exact deg hfb) e1 f1
  · exact Spline.glued_compose hc hs.2.1 h (by rw [hs.2.2]; exact hdim) (by rw [hs.2.2, ha.2]; exact deg hfa) (by rw [hs.2.2, hb.2]; exact deg hfb) e2 f2

variable [BEq K] [ScalarDiv K W]

theorem rglued_polyCompose (hc : cfg.Ok) {s : Spline V} {ds : List ℕ} (hs : HasShape ds s) {a b : RSpline K W} {r r' : RSpline K V}
    (h : RGlued d sa sb a b) (ha : HasRShape da a) (hb : HasRShape db b) (hdim : ds.length = Coords.n K W)
    (hfa : ComposeFits cfg ds da) (hfb : ComposeFits cfg ds db)
    (ea : s.composeRational cfg a = .ok r) (eb : s.composeRational cfg b = .ok r') : RGlued d sa sb r r' := by
  have deg : ∀ {c : List ℕ}, ComposeFits cfg ds c → Spline.DegOk cfg (c.map (ds.sum * ·)) := by
    intro c hf t ht
    obtain ⟨q, hq, rfl⟩ := List.mem_map.mp ht
    exact hf.result q hq
  obtain ⟨hs, rfl⟩ := hs
  unfold Spline.composeRational at ea eb
  rw [bind_eq_ok] at ea eb
  obtain ⟨f, -, e2⟩ := ea
  obtain ⟨f', -, e2'⟩ := eb
  cases f with
  | false => cases e2
  | true =>
    cases f' with
    | false => cases e2'
    | true =>
      simp only [Bool.not_true, Bool.false_eq_true, if_false, bind_eq_ok] at e2 e2'
      obtain ⟨n, e1, w, e2, e3⟩ := e2
      obtain ⟨n', f1, w', f2, f3⟩ := e2'
      refine rglued_ofSplines (glued_numeratorRational hc hs h ha hb hdim hfa hfb e1 f1) ?_ e3 f3
      exact Spline.glued_power hc h.2 (by rw [ha.2.2]; exact deg hfa) (by rw [hb.2.2]; exact deg hfb) e2 f2

end

end RSpline
end Bezman
