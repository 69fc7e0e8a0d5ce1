import Verif.Model.Threads

/-! # Threads that use rational splines -/

namespace Bezman.Threads

/-- Members and operators of rational splines; `i`, `j`, `k`, `l` are variables. -/
inductive ROp (K V : Type)
  /-- `k = j;`, src/rational_bezier_spline.hpp:160-161 -/
  | copy (k j : Nat)
  /-- `j.Evaluate(t)`, src/rational_bezier_spline.inc:126-133 -/
  | evaluate (j : Nat) (t : List K)
  /-- `j.OrderElevateAlongParametricDimension(d);`, src/rational_bezier_spline.inc:437-448 -/
  | elevate (j d : Nat)
  /-- `auto parts = j.SplitAtPosition(z, d); k = parts[0]; l = parts[1];`, src/rational_bezier_spline.inc:450-464 -/
  | split (k l j : Nat) (z : K) (d : Nat)
  /-- `k = j.DerivativeWRTParametricDimension(orders);`, src/rational_bezier_spline.inc:508-546 -/
  | derive (k j : Nat) (orders : List Nat)
  /-- `k = j * c;`, src/rational_bezier_spline.inc:561-569 -/
  | scale (k j : Nat) (c : K)
  /-- `j += p;`, src/rational_bezier_spline.inc:571-586 -/
  | addPoint (j : Nat) (p : V)
  /-- `k = -j;`, src/rational_bezier_spline.inc:627-636 -/
  | neg (k j : Nat)
  /-- `k = i + j;`, src/rational_bezier_spline.inc:638-653 -/
  | add (k i j : Nat)
  /-- `i += j;`, src/rational_bezier_spline.inc:655-673 -/
  | addAssign (i j : Nat)
  /-- `k = i - j;`, src/rational_bezier_spline.inc:675-690 -/
  | sub (k i j : Nat)
  /-- `i -= j;`, src/rational_bezier_spline.inc:692-710 -/
  | subAssign (i j : Nat)
  /-- `j.MinimumCorner()`, src/rational_bezier_spline.inc:834-859 -/
  | minimumCorner (j : Nat)
  /-- `j.MaximumCorner()`, src/rational_bezier_spline.inc:861-886 -/
  | maximumCorner (j : Nat)
  /-- `k = i.Compose(j);`, src/rational_bezier_spline.hpp:506-521, for splines of the same type; `scalar`: their control points are numbers -/
  | compose (k i j : Nat) (scalar : Bool)

@[inherit_doc Op.call]
def ROp.call {K V : Type} [Zero K] [One K] [Add K] [Sub K] [Neg K] [Mul K] [Div K] [NatCast K] [LT K] [DecidableLT K] [BEq K] [Zero V] [Add V]
    [Sub V] [Neg V] [SMul K V] [ScalarDiv K V] [Coords K V] (cfg : Cfg) (tx : K → String) : ROp K V → Call (RSpline K V) V
  | .copy k j => ⟨[j], [k], fun xs => heard (Said.lift (rd xs 0)) fun s => ([s], [])⟩
  | .evaluate j t => ⟨[j], [], fun xs => heard (Said.lift (rd xs 0) >>= fun r => Said.lift (r.evaluate t)) fun x => ([], [x])⟩
  | .elevate j d => ⟨[j], [j], fun xs => heard (Said.lift (rd xs 0) >>= fun r => Messages.rOrderElevate r d) fun r => ([r], [])⟩
  | .split k l j z d => ⟨[j], [k, l], fun xs =>
      heard (Said.lift (rd xs 0) >>= fun r => Messages.rSplitAt tx r z d) fun r => ([r.1, r.2], [])⟩
  | .derive k j orders => ⟨[j], [k], fun xs =>
      heard (Said.lift (rd xs 0) >>= fun r => Messages.rDerivativeSpline cfg r orders) fun r => ([r], [])⟩
  | .scale k j c => ⟨[j], [k], fun xs => heard (Said.lift (rd xs 0) >>= fun r => Said.lift (r.smulOp c)) fun r => ([r], [])⟩
  | .addPoint j p => ⟨[j], [j], fun xs => heard (Said.lift (rd xs 0) >>= fun r => Said.lift (r.addPointAssign p)) fun r => ([r], [])⟩
  | .neg k j => ⟨[j], [k], fun xs => heard (Said.lift (rd xs 0) >>= fun r => Said.lift r.negOp) fun r => ([r], [])⟩
  | .add k i j => ⟨[i, j], [k], fun xs =>
      heard (Said.lift (rd xs 0) >>= fun r => Said.lift (rd xs 1) >>= fun q => Messages.rAddOp cfg r q) fun r => ([r], [])⟩
  | .addAssign i j => ⟨[i, j], [i], fun xs =>
      heard (Said.lift (rd xs 0) >>= fun r => Said.lift (rd xs 1) >>= fun q => Messages.rAddAssign cfg r q) fun r => ([r], [])⟩
  | .sub k i j => ⟨[i, j], [k], fun xs =>
      heard (Said.lift (rd xs 0) >>= fun r => Said.lift (rd xs 1) >>= fun q => Messages.rSubOp cfg r q) fun r => ([r], [])⟩
  | .subAssign i j => ⟨[i, j], [i], fun xs =>
      heard (Said.lift (rd xs 0) >>= fun r => Said.lift (rd xs 1) >>= fun q => Messages.rSubAssign cfg r q) fun r => ([r], [])⟩
  | .minimumCorner j => ⟨[j], [], fun xs => heard (Said.lift (rd xs 0) >>= fun r => Messages.rMinimumCorner r) fun x => ([], [x])⟩
  | .maximumCorner j => ⟨[j], [], fun xs => heard (Said.lift (rd xs 0) >>= fun r => Messages.rMaximumCorner r) fun x => ([], [x])⟩
  | .compose k i j scalar => ⟨[i, j], [k], fun xs =>
      heard (Said.lift (rd xs 0) >>= fun r => Said.lift (rd xs 1) >>= fun q => Messages.rComposeRational cfg scalar r q) fun r => ([r], [])⟩

end Bezman.Threads
