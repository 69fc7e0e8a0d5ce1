import Verif.Spec.Homogeneous
import Verif.Props.Affine
import Verif.Spec.AnyArithRational

set_option linter.unusedSectionVars false

/-! # Homogeneous coordinates -/

namespace Bezman
open Spec Props

section
variable {K V W : Type} [Zero K] [One K] [Add K] [Sub K] [Mul K] [Neg K] [Div K] [NatCast K]
  [Zero V] [Add V] [Sub V] [Neg V] [SMul K V]

theorem linearOn_fst : LinearOn K (Prod.fst : V × K → V) := ⟨rfl, fun _ _ => rfl, fun _ _ => rfl, fun _ => rfl, fun _ _ => rfl⟩
theorem linearOn_snd : LinearOn K (Prod.snd : V × K → K) := ⟨rfl, fun _ _ => rfl, fun _ _ => rfl, fun _ => rfl, fun _ _ => rfl⟩

theorem RSpline.ofSplines_hom (H : Spline (V × K)) : RSpline.ofSplines (H.map Prod.fst) (H.map Prod.snd) = .ok (RSpline.ofHom H) := by
  simp [RSpline.ofSplines, RSpline.compatible, Spline.map, RSpline.ofHom, assertM]

theorem RSpline.ofHom_every {ds : List ℕ} {r : RSpline K V} (h : HasRShape ds r) : ∃! H : Spline (V × K), RSpline.ofHom H = r := by
  obtain ⟨⟨⟨n1, n2, n3, n4⟩, rfl⟩, ⟨⟨w1, w2, w3, w4⟩, hd⟩⟩ := h
  have hl : r.num.cps.length = r.wt.cps.length := by rw [n4, w4, hd]
  refine ⟨⟨r.num.degrees, r.num.ncp, r.num.offsets, List.zip r.num.cps r.wt.cps⟩, ?_, fun H' h' => ?_⟩
  · obtain ⟨⟨a1, a2, a3, a4⟩, ⟨b1, b2, b3, b4⟩⟩ := r
    simp_all [RSpline.ofHom, Spline.map]
    exact ⟨List.map_fst_zip (by omega), List.map_snd_zip (by omega)⟩
  · subst h'
    obtain ⟨a1, a2, a3, a4⟩ := H'
    simp [RSpline.ofHom, Spline.map, List.zip_map']

theorem RSpline.splitAt_hom [LT K] [DecidableLT K] (H : Spline (V × K)) (z : K) (d : ℕ) :
    (RSpline.ofHom H).splitAt z d = (H.splitAt z d).map fun l => (RSpline.ofHom l.1, RSpline.ofHom l.2) := by
  have h1 := (C84_linear_split_compose ⟨0, 0⟩ (linearOn_fst (K := K) (V := V)) H).1 z d
  have h2 := (C84_linear_split_compose ⟨0, 0⟩ (linearOn_snd (K := K) (V := V)) H).1 z d
  simp only [RSpline.splitAt, RSpline.ofHom]
  rw [h1, h2]
  cases H.splitAt z d with
  | error e => rfl
  | ok l => simp only [Except.map, bind_ok, RSpline.ofSplines_hom, pure_eq_ok]; rfl

theorem RSpline.splitAtMany_hom [LT K] [DecidableLT K] (H : Spline (V × K)) (zs : List K) (d : ℕ) :
    (RSpline.ofHom H).splitAtMany zs d = (H.splitAtMany zs d).map (List.map RSpline.ofHom) := by
  let _ : Par (Spline (V × K)) (RSpline K V) := parMap RSpline.ofHom
  have hsp : ∀ (H : Spline (V × K)) (r : RSpline K V) (_ : H ≋ r) (z : K), RelM strict (H.splitAt z d) (r.splitAt z d) := by
    intro H r h z
    obtain rfl : RSpline.ofHom H = r := h
    rw [RSpline.splitAt_hom]
    cases H.splitAt z d with
    | error e => exact RelM.err e
    | ok l => exact RelM.ok ⟨rfl, rfl⟩
  let _ := parSame K
  have hrd : ∀ i, RelM strict (rd zs i) (rd zs i) := fun i => by
    cases rd zs i with
    | error e => exact RelM.err e
    | ok x => exact RelM.ok (rfl : (_ : K) = _)
  refine RelM.toMap (fun l l' h => eq_list_map (fun _ _ => Eq.symm) l l' h) ?_
  unfold RSpline.splitAtMany Spline.splitAtMany
  refine RelM.guard (fun _ => Iff.rfl) fun _ _ => RelM.ite (fun _ => RelM.ok (parSingle rfl)) fun _ => ?_
  refine RelM.bind (hrd 0) fun z z' hz => ?_
  obtain rfl : z = z' := hz
  refine RelM.bind (hsp _ _ rfl z) (introProd fun a a' ha b b' hb => ?_)
  refine RelM.bind (RelM.loopFrom (parPair (parSingle ha) (parPair ha hb)) fun i q q' hq => ?_)
    (introProd fun l l' hl => introProd fun a a' ha b b' hb => RelM.ok (parAppend hl (parSingle hb)))
  obtain ⟨l, a, b⟩ := q
  obtain ⟨l', a', b'⟩ := q'
  obtain ⟨hl, ha, hb⟩ := hq
  refine RelM.bind (hrd i) fun z z' hz => ?_
  obtain rfl : z = z' := hz
  refine RelM.bind (hrd _) fun y y' hy => ?_
  obtain rfl : y = y' := hy
  refine RelM.bind (hsp _ _ hb _) (introProd fun a a' ha b b' hb => ?_)
  exact RelM.ok (parPair (parAppend hl (parSingle ha)) (parPair ha hb))

theorem Spline.composeNumeratorRational_linear {V' : Type} [Zero V'] [Add V'] [Sub V'] [Neg V'] [SMul K V'] {L : V → V'} [Coords K W]
    (cfg : Cfg) (h : LinearOn K L) (s : Spline V) (q : RSpline K W) :
    (s.map L).composeNumeratorRational cfg q = (s.composeNumeratorRational cfg q).map (Spline.map L) := by
  let _ := parSame K
  let _ := parMap L
  let _ := parSame W
  have i1 : ParScalar K K := parScalarSame
  have i2 : ParPoint K K V V' := parPointLinear h
  have i6 : ParCoords K K W W := parCoordsSame
  have hs : s ≋ s.map L := spline_map_rel fun _ _ => rfl
  have hq : q ≋ q := ⟨parSplineSame (fun _ => (rfl : _ = _)) q.num, parSplineSame (fun _ => (rfl : _ = _)) q.wt⟩
  exact RelM.toMap (fun _ _ => eq_spline_map fun _ _ => Eq.symm) (parComposeNumeratorRational cfg hs hq)

end
end Bezman
