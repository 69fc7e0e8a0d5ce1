import Verif.Model.ThreadsRational

/-! # Threads that use polynomial and rational splines together -/

namespace Bezman.Threads

/-- What a variable of a thread holds: a polynomial spline of points, a polynomial spline of numbers (src/bezier_spline.hpp:60-62) or a
rational spline (src/rational_bezier_spline.hpp:50-52). -/
inductive Obj (K V : Type)
  | poly (s : Spline V)
  | num (s : Spline K)
  | rat (r : RSpline K V)

namespace Obj
variable {K V : Type}

/-- The variable as a polynomial spline of points. The types are static in C++, so a program with another variable in its place does not
compile; the model makes this an error. -/
def asPoly : Obj K V → M (Spline V)
  | .poly s => .ok s
  | _ => .error .ub

@[inherit_doc asPoly]
def asNum : Obj K V → M (Spline K)
  | .num s => .ok s
  | _ => .error .ub

@[inherit_doc asPoly]
def asRat : Obj K V → M (RSpline K V)
  | .rat r => .ok r
  | _ => .error .ub

end Obj

/-- A call with variables of one type, in a thread with variables of several types. -/
def Call.among {α ρ σ τ : Type} (as : σ → M α) (into : α → σ) (out : ρ → τ) (c : Call α ρ) : Call σ τ :=
  ⟨c.args, c.targets, fun xs =>
    match xs.mapM as with
    | .ok ys => ((c.run ys).1, (c.run ys).2.map fun r => (r.1.map into, r.2.map out))
    | .error e => ([], .error e)⟩

/-- Members and operators of the library on variables of all three types; `i`, `j`, `k` are variables. -/
inductive MOp (K V : Type)
  /-- polynomial splines of points only -/
  | poly (o : Op K)
  /-- polynomial splines of numbers only -/
  | num (o : Op K)
  /-- `k = i * j;` for splines of numbers, src/bezier_spline.inc:873-906 -/
  | product (k i j : Nat)
  /-- rational splines only -/
  | rat (o : ROp K V)
  /-- `k = RationalBezierSpline(j);` for a polynomial spline `j`, src/rational_bezier_spline.hpp:104-120 -/
  | promote (k j : Nat)
  /-- `k = RationalBezierSpline(i, j);` for splines of points and of numbers, src/rational_bezier_spline.hpp:123-129 -/
  | assemble (k i j : Nat)
  /-- `k = j.GetWeightFunctionSpline();`, src/rational_bezier_spline.hpp:208-210 -/
  | weights (k j : Nat)
  /-- `k = j.GetNumeratorSpline();`, src/rational_bezier_spline.hpp:213-215 -/
  | numerator (k j : Nat)
  /-- `k = i * j;` for a spline `i` of points and a spline `j` of numbers, src/bezier_spline.inc:873-906 -/
  | weigh (k i j : Nat)
  /-- `k = i.Compose(j);` for a spline `i` of points and a spline `j` of numbers, src/bezier_spline.inc:908-931 -/
  | composeNum (k i j : Nat)
  /-- `k = i.Compose(j);` for a rational spline `i` and a polynomial spline `j`, src/rational_bezier_spline.hpp:448-460; `scalar`: the
  control points of `j` are numbers -/
  | composePoly (k i j : Nat) (scalar : Bool)
  /-- `k = i.Compose(j);` for a polynomial spline `i` and a rational spline `j`, src/bezier_spline.inc:959-986; `scalar`: the control
  points of `j` are numbers -/
  | composeRational (k i j : Nat) (scalar : Bool)

@[inherit_doc Op.call]
def MOp.call {K V : Type} [Zero K] [One K] [Add K] [Sub K] [Neg K] [Mul K] [Div K] [NatCast K] [LT K] [DecidableLT K] [BEq K] [Zero V] [Add V]
    [Sub V] [Neg V] [SMul K V] [ScalarDiv K V] [Coords K V] (cfg : Cfg) (tx : K → String) : MOp K V → Call (Obj K V) (V ⊕ K)
  | .poly o => (o.call cfg tx).among Obj.asPoly .poly .inl
  | .num o => (o.call cfg tx).among Obj.asNum .num .inr
  | .product k i j => ((NumOp.mul k i j).call cfg).among Obj.asNum .num .inr
  | .rat o => (o.call cfg tx).among Obj.asRat .rat .inl
  | .promote k j => ⟨[j], [k], fun xs =>
      heard (Said.lift (rd xs 0 >>= Obj.asPoly) >>= fun s => Said.lift (RSpline.ofSpline s)) fun r => ([.rat r], [])⟩
  | .assemble k i j => ⟨[i, j], [k], fun xs =>
      heard (Said.lift (rd xs 0 >>= Obj.asPoly) >>= fun s => Said.lift (rd xs 1 >>= Obj.asNum) >>= fun w => Said.lift (RSpline.ofSplines s w))
        fun r => ([.rat r], [])⟩
  | .weights k j => ⟨[j], [k], fun xs => heard (Said.lift (rd xs 0 >>= Obj.asRat)) fun r => ([.num r.wt], [])⟩
  | .numerator k j => ⟨[j], [k], fun xs => heard (Said.lift (rd xs 0 >>= Obj.asRat)) fun r => ([.poly r.num], [])⟩
  | .weigh k i j => ⟨[i, j], [k], fun xs =>
      heard (Said.lift (rd xs 0 >>= Obj.asPoly) >>= fun s => Said.lift (rd xs 1 >>= Obj.asNum) >>= fun w => Said.lift (RSpline.mulWeight' cfg s w))
        fun r => ([.poly r], [])⟩
  | .composeNum k i j => ⟨[i, j], [k], fun xs =>
      heard (Said.lift (rd xs 0 >>= Obj.asPoly) >>= fun s => Said.lift (rd xs 1 >>= Obj.asNum) >>= fun t => Messages.compose K cfg true s t)
        fun r => ([.poly r], [])⟩
  | .composePoly k i j scalar => ⟨[i, j], [k], fun xs =>
      heard (Said.lift (rd xs 0 >>= Obj.asRat) >>= fun s => Said.lift (rd xs 1 >>= Obj.asPoly) >>= fun t => Messages.rCompose cfg scalar s t)
        fun r => ([.rat r], [])⟩
  | .composeRational k i j scalar => ⟨[i, j], [k], fun xs =>
      heard (Said.lift (rd xs 0 >>= Obj.asPoly) >>= fun s => Said.lift (rd xs 1 >>= Obj.asRat) >>= fun t =>
        Messages.composeRational cfg scalar s t) fun r => ([.rat r], [])⟩

end Bezman.Threads
