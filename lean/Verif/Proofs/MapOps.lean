import Verif.Proofs.ScalarMap
import Verif.Proofs.ParamArith

set_option linter.unusedSectionVars false

/-! # Single operations commute with maps of the numbers -/

namespace Bezman
open Spec
namespace Spline

section
variable {V V' : Type} [Par V V'] {g : V → V'}

theorem rel_map (hg : ∀ (a : V) (b : V'), a ≋ b ↔ b = g a) (s : Spline V) : s ≋ s.map g := spline_map_rel fun a _ => (hg a _).2 rfl

theorem to_map (hg : ∀ (a : V) (b : V'), a ≋ b ↔ b = g a) {x : M (Spline V)} {y : M (Spline V')} (h : RelM strict x y) : y = x.map (Spline.map g) :=
  RelM.toMap (fun _ _ h => eq_spline_map (fun a b => (hg a b).1) h) h

end

section
variable {K K' V V' W W' U U' : Type} [Par K K'] [Par V V'] [Par W W'] [Par U U']
  [Zero K] [One K] [Add K] [Sub K] [Mul K] [Neg K] [Div K] [NatCast K]
  [Zero K'] [One K'] [Add K'] [Sub K'] [Mul K'] [Neg K'] [Div K'] [NatCast K'] [hk : ParScalar K K']
  [Zero V] [Add V] [Sub V] [Neg V] [SMul K V] [Zero V'] [Add V'] [Sub V'] [Neg V'] [SMul K' V'] [hp : ParPoint K K' V V']
  [Zero U] [Add U] [Sub U] [Neg U] [SMul K U] [Zero U'] [Add U'] [Sub U'] [Neg U'] [SMul K' U'] [hu : ParPoint K K' U U']
  {f : K → K'} {g : V → V'} {g' : W → W'} {g'' : U → U'}

variable (hf : ∀ (a : K) (b : K'), a ≋ b ↔ b = f a) (hg : ∀ (a : V) (b : V'), a ≋ b ↔ b = g a) (hg' : ∀ (a : W) (b : W'), a ≋ b ↔ b = g' a)
  (hg'' : ∀ (a : U) (b : U'), a ≋ b ↔ b = g'' a)
include hk hp hg

theorem addOp_map (cfg : Cfg) (a b : Spline V) : addOp K' cfg (a.map g) (b.map g) = (addOp K cfg a b).map (Spline.map g) :=
  to_map hg (parAddOp (K := K) (K' := K') cfg (rel_map hg a) (rel_map hg b))

theorem addAssign_map (cfg : Cfg) (a b : Spline V) : addAssign K' cfg (a.map g) (b.map g) = (addAssign K cfg a b).map (Spline.map g) :=
  to_map hg (parAddAssign (K := K) (K' := K') cfg (rel_map hg a) (rel_map hg b))

theorem subAssign_map (cfg : Cfg) (a b : Spline V) : subAssign K' cfg (a.map g) (b.map g) = (subAssign K cfg a b).map (Spline.map g) :=
  to_map hg (parSubAssign (K := K) (K' := K') cfg (rel_map hg a) (rel_map hg b))

theorem subOp_map (cfg : Cfg) (a b : Spline V) : subOp K' cfg (a.map g) (b.map g) = (subOp K cfg a b).map (Spline.map g) :=
  to_map hg (parSubOp (K := K) (K' := K') cfg (rel_map hg a) (rel_map hg b))

theorem orderElevate_map (a : Spline V) (d : ℕ) : orderElevate K' (a.map g) d = (orderElevate K a d).map (Spline.map g) :=
  to_map hg (parOrderElevate (K := K) (K' := K') (rel_map hg a) d)

theorem negOp_map (a : Spline V) : (a.map g).negOp = a.negOp.map (Spline.map g) :=
  to_map hg (parNegOp (K := K) (K' := K') (rel_map hg a))

theorem addPoint_map (a : Spline V) (v : V) : (a.map g).addPoint (g v) = (a.addPoint v).map (Spline.map g) :=
  to_map hg (parAddPoint (K := K) (K' := K') (rel_map hg a) ((hg _ _).2 rfl))

theorem subPoint_map (a : Spline V) (v : V) : (a.map g).subPoint (g v) = (a.subPoint v).map (Spline.map g) :=
  to_map hg (parSubPoint (K := K) (K' := K') (rel_map hg a) ((hg _ _).2 rfl))

theorem pointSub_map (a : Spline V) (v : V) : pointSub (g v) (a.map g) = (pointSub v a).map (Spline.map g) :=
  to_map hg (parPointSub (K := K) (K' := K') (rel_map hg a) ((hg _ _).2 rfl))

theorem derivativeSpline_map (cfg : Cfg) (a : Spline V) (orders : List ℕ) :
    derivativeSpline K' cfg (a.map g) orders = (derivativeSpline K cfg a orders).map (Spline.map g) :=
  to_map hg (parDerivativeSpline (K := K) (K' := K') cfg (rel_map hg a) orders)

include hf in
theorem smulOp_map (a : Spline V) (c : K) : (a.map g).smulOp (f c) = (a.smulOp c).map (Spline.map g) :=
  to_map hg (parSmulOp (K := K) (K' := K') (rel_map hg a) ((hf _ _).2 rfl))

include hu hg' hg'' in
theorem mulOp_map (cfg : Cfg) {mul : V → W → U} {mul' : V' → W' → U'} (hm : ∀ a b, g'' (mul a b) = mul' (g a) (g' b))
    (a : Spline V) (b : Spline W) : mulOp K' cfg mul' (a.map g) (b.map g') = (mulOp K cfg mul a b).map (Spline.map g'') :=
  to_map hg'' (parMulOp (K := K) (K' := K') cfg (fun _ _ _ _ h1 h2 => by
    rw [hg] at h1; rw [hg'] at h2; rw [hg'', h1, h2, hm]) (rel_map hg a) (rel_map hg' b))
end

end Spline
end Bezman
