import Verif.Model.Basic

/-!
# Algorithmic differentiation: `AlgoDiffType`

src/utils/computational_differentiation/algo_diff_type.hpp and .inc.

`AlgoDiffType<Scalar, n>` stores a value and a list of derivatives.  `Scalar` is a
built-in number type or, for second derivatives, another `AlgoDiffType` with a static
number of derivatives.  The class `Scal B K` lists the operations that the functions
below use on `Scalar = K`, where `B` is the built-in type of the literals (`1.0`, `0.5`).

Simplifications: the built-in numbers are exact (no rounding); a division by zero and a
`<cmath>` call outside its domain are errors instead of infinities or NaNs; derivative
counts are natural numbers (`GetNumberOfDerivatives`, algo_diff_type.hpp:204, truncates `size_t` to
`unsigned int`).
-/

namespace Bezman

/-- The functions of `<cmath>` on a built-in number type. -/
class Cmath (B : Type) where
  /-- `a / b` -/
  div : B → B → M B
  exp : B → M B
  log : B → M B
  log10 : B → M B
  sqrt : B → M B
  sin : B → M B
  cos : B → M B
  tan : B → M B
  asin : B → M B
  acos : B → M B
  atan : B → M B
  pow : B → B → M B
  /-- `a > b` -/
  gt : B → B → Bool
  /-- the literal `0.5` -/
  half : B

/-- What `AlgoDiffType<K>` needs of its `Scalar = K`; `B` is the type of the literals. -/
class Scal (B : outParam Type) (K : Type) where
  /-- conversion of a literal, `Scalar{1.}` -/
  ofBase : B → K
  /-- `Scalar{}` -/
  zero : K
  add : K → K → M K
  sub : K → K → M K
  mul : K → K → M K
  div : K → K → M K
  neg : K → M K
  /-- `1. + x` -/
  baseAdd : B → K → M K
  /-- `x - 1.0` -/
  subBase : K → B → M K
  /-- `x * std::log(10.)` -/
  mulBase : K → B → M K
  /-- `1.0 / x` -/
  baseDiv : B → K → M K
  /-- `x > 0.0` -/
  gtBase : K → B → Bool
  exp : K → M K
  log : K → M K
  log10 : K → M K
  sqrt : K → M K
  sin : K → M K
  cos : K → M K
  tan : K → M K
  atan : K → M K
  pow : K → K → M K

/-- A built-in number type as `Scalar`. -/
instance Scal.builtin {B : Type} [Zero B] [Add B] [Sub B] [Mul B] [Neg B] [Cmath B] : Scal B B where
  ofBase x := x
  zero := 0
  add x y := pure (x + y)
  sub x y := pure (x - y)
  mul x y := pure (x * y)
  div := Cmath.div
  neg x := pure (-x)
  baseAdd x y := pure (x + y)
  subBase x y := pure (x - y)
  mulBase x y := pure (x * y)
  baseDiv := Cmath.div
  gtBase := Cmath.gt
  exp := Cmath.exp
  log := Cmath.log
  log10 := Cmath.log10
  sqrt := Cmath.sqrt
  sin := Cmath.sin
  cos := Cmath.cos
  tan := Cmath.tan
  atan := Cmath.atan
  pow := Cmath.pow

/-- `AlgoDiffType`: `v_` and `d_`, algo_diff_type.hpp:95-101.  (`std::vector` for a dynamic number of
derivatives, `std::array` for a static one, algo_diff_type.hpp:77-79.) -/
structure ADT (K : Type) where
  /-- `v_`, `GetValue()` -/
  v : K
  /-- `d_`, `GetDerivatives()` -/
  d : List K
deriving DecidableEq, Repr

namespace ADT

/-- `for (i < d.size()) d[i] = f(d[i])` -/
def mapD {K : Type} (f : K → M K) (d : List K) : M (List K) :=
  loop d.length (fun i d => do
    let x ← rd d i
    let y ← f x
    wr d i y) d

/-- `for (i < d.size()) d[i] = f(d[i], e[i])` -/
def zipD {K : Type} (f : K → K → M K) (d e : List K) : M (List K) :=
  loop d.length (fun i d => do
    let x ← rd d i
    let y ← rd e i
    let z ← f x y
    wr d i z) d

/-- `for (i < d.size()) d[i] = f(d[i], d[i])`: the loop above when `e` is the same
object as `d`, so that both reads see the current memory. -/
def zipSelf {K : Type} (f : K → K → M K) (d : List K) : M (List K) :=
  loop d.length (fun i d => do
    let x ← rd d i
    let y ← rd d i
    let z ← f x y
    wr d i z) d

section
variable {B K : Type} [One B] [NatCast B] [Zero B] [Neg B] [Cmath B] [Scal B K]

/-- `AlgoDiffType(value, n)` for a dynamic number of derivatives, algo_diff_type.hpp:116-118, and
`AlgoDiffType(value)` for a static one, algo_diff_type.hpp:123-124. -/
def const (value : K) (n : Nat) : ADT K := ⟨value, List.replicate n Scal.zero⟩

/-- `SetActiveComponent`, algo_diff_type.hpp:189-192. -/
def setActive (a : ADT K) (component : Nat) : M (ADT K) := do
  let d ← wr (List.replicate a.d.length Scal.zero) component (Scal.ofBase (1 : B))
  pure { a with d := d }

/-- `AlgoDiffType(value, n, i)`, algo_diff_type.hpp:138-144; `AlgoDiffType(value, i)` for a static
number of derivatives, algo_diff_type.hpp:155-159. -/
def active (value : K) (n i : Nat) : M (ADT K) := do
  let a : ADT K := const value n
  assertM (i < a.d.length)
  a.setActive i

/-- `operator+=(const ADT_& b)`, algo_diff_type.inc:40-48. -/
def addAssign (a b : ADT K) : M (ADT K) := do
  assertM (b.d.length == a.d.length)
  let v ← Scal.add a.v b.v
  let d ← zipD Scal.add a.d b.d
  pure ⟨v, d⟩

/-- `a += a`, algo_diff_type.inc:40-48 with `b` an alias of `*this`. -/
def addAssignSelf (a : ADT K) : M (ADT K) := do
  assertM (a.d.length == a.d.length)
  let v ← Scal.add a.v a.v
  let d ← zipSelf Scal.add a.d
  pure ⟨v, d⟩

/-- `operator+(const ADT_& b)`, algo_diff_type.inc:31-36: a copy, then `+=`. -/
def add (a b : ADT K) : M (ADT K) := a.addAssign b

/-- `operator+=(const Scalar& b)`, algo_diff_type.inc:60-63. -/
def addAssignScalar (a : ADT K) (b : K) : M (ADT K) := do
  let v ← Scal.add a.v b
  pure { a with v := v }

/-- `operator+(const Scalar& b)`, algo_diff_type.inc:52-56. -/
def addScalar (a : ADT K) (b : K) : M (ADT K) := a.addAssignScalar b

/-- `operator-()`, algo_diff_type.inc:68-75. -/
def neg (a : ADT K) : M (ADT K) := do
  let v ← Scal.neg a.v
  let d ← mapD Scal.neg a.d
  pure ⟨v, d⟩

/-- `operator-=(const ADT_& b)`, algo_diff_type.inc:89-96; it has no assertion. -/
def subAssign (a b : ADT K) : M (ADT K) := do
  let v ← Scal.sub a.v b.v
  let d ← zipD Scal.sub a.d b.d
  pure ⟨v, d⟩

/-- `a -= a`, algo_diff_type.inc:89-96 with `b` an alias of `*this`. -/
def subAssignSelf (a : ADT K) : M (ADT K) := do
  let v ← Scal.sub a.v a.v
  let d ← zipSelf Scal.sub a.d
  pure ⟨v, d⟩

/-- `operator-(const ADT_& b)`, algo_diff_type.inc:79-85. -/
def sub (a b : ADT K) : M (ADT K) := do
  assertM (b.d.length == a.d.length)
  a.subAssign b

/-- `operator-=(const Scalar& b)`, algo_diff_type.inc:107-110. -/
def subAssignScalar (a : ADT K) (b : K) : M (ADT K) := do
  let v ← Scal.sub a.v b
  pure { a with v := v }

/-- `operator-(const Scalar& b)`, algo_diff_type.inc:99-103. -/
def subScalar (a : ADT K) (b : K) : M (ADT K) := a.subAssignScalar b

/-- `operator*=(const ADT_& b)`, algo_diff_type.inc:124-133; `v_` is updated last. -/
def mulAssign (a b : ADT K) : M (ADT K) := do
  assertM (b.d.length == a.d.length)
  let d ← zipD (fun x y => do
    let p ← Scal.mul y a.v
    let q ← Scal.mul b.v x
    Scal.add p q) a.d b.d
  let v ← Scal.mul a.v b.v
  pure ⟨v, d⟩

/-- `a *= a`, algo_diff_type.inc:124-133 with `b` an alias of `*this`. -/
def mulAssignSelf (a : ADT K) : M (ADT K) := do
  assertM (a.d.length == a.d.length)
  let d ← zipSelf (fun x y => do
    let p ← Scal.mul y a.v
    let q ← Scal.mul a.v x
    Scal.add p q) a.d
  let v ← Scal.mul a.v a.v
  pure ⟨v, d⟩

/-- `operator*(const ADT_& b)`, algo_diff_type.inc:115-120. -/
def mul (a b : ADT K) : M (ADT K) := a.mulAssign b

/-- `operator*=(const Scalar& b)`, algo_diff_type.inc:145-151. -/
def mulAssignScalar (a : ADT K) (b : K) : M (ADT K) := do
  let v ← Scal.mul a.v b
  let d ← mapD (fun x => Scal.mul x b) a.d
  pure ⟨v, d⟩

/-- `operator*(const Scalar& b)`, algo_diff_type.inc:137-141. -/
def mulScalar (a : ADT K) (b : K) : M (ADT K) := a.mulAssignScalar b

/-- `operator/=(const ADT_& b)`, algo_diff_type.inc:165-175; `v_` is updated last. -/
def divAssign (a b : ADT K) : M (ADT K) := do
  assertM (b.d.length == a.d.length)
  let bb ← Scal.mul b.v b.v
  let inverse_b_squared ← Scal.baseDiv (1 : B) bb
  let d ← zipD (fun x y => do
    let p ← Scal.mul b.v x
    let q ← Scal.mul y a.v
    let r ← Scal.sub p q
    Scal.mul r inverse_b_squared) a.d b.d
  let v ← Scal.div a.v b.v
  pure ⟨v, d⟩

/-- `a /= a`, algo_diff_type.inc:165-175 with `b` an alias of `*this`. -/
def divAssignSelf (a : ADT K) : M (ADT K) := do
  assertM (a.d.length == a.d.length)
  let bb ← Scal.mul a.v a.v
  let inverse_b_squared ← Scal.baseDiv (1 : B) bb
  let d ← zipSelf (fun x y => do
    let p ← Scal.mul a.v x
    let q ← Scal.mul y a.v
    let r ← Scal.sub p q
    Scal.mul r inverse_b_squared) a.d
  let v ← Scal.div a.v a.v
  pure ⟨v, d⟩

/-- `operator/(const ADT_& b)`, algo_diff_type.inc:156-161. -/
def div (a b : ADT K) : M (ADT K) := a.divAssign b

/-- `operator+(const Scalar& a, const ADT& b)`, algo_diff_type.inc:208-211. -/
def scalarAdd (a : K) (b : ADT K) : M (ADT K) := b.addScalar a

/-- `operator-(const Scalar& a, const ADT& b)`, algo_diff_type.inc:214-217. -/
def scalarSub (a : K) (b : ADT K) : M (ADT K) := do
  let r ← b.neg
  r.addScalar a

/-- `operator*(const Scalar& a, const ADT& b)`, algo_diff_type.inc:220-223. -/
def scalarMul (a : K) (b : ADT K) : M (ADT K) := b.mulScalar a

/-- `operator/(const Scalar& a, const ADT& b)`, algo_diff_type.inc:226-236. -/
def scalarDiv (a : K) (b : ADT K) : M (ADT K) := do
  let na ← Scal.neg a
  let bb ← Scal.mul b.v b.v
  let deriv ← Scal.div na bb
  let nd ← Scal.neg deriv
  let v ← Scal.mul b.v nd
  let d ← mapD (fun x => Scal.mul x deriv) b.d
  pure ⟨v, d⟩

/-- `exp`, algo_diff_type.inc:239-252. -/
def exp (exponent : ADT K) : M (ADT K) := do
  let tmp ← Scal.exp exponent.v
  mulAssignScalar { exponent with v := Scal.ofBase (1 : B) } tmp

/-- `abs`, algo_diff_type.inc:255-258. -/
def abs (base : ADT K) : M (ADT K) :=
  if Scal.gtBase base.v (0 : B) then pure base else base.neg

/-- `pow(base, power)` with a `Scalar` power, algo_diff_type.inc:261-277. -/
def powScalar (base : ADT K) (power : K) : M (ADT K) := do
  let e ← Scal.subBase power (1 : B)
  let tmp ← Scal.pow base.v e
  let v ← Scal.mul base.v tmp
  let d ← mapD (fun x => do
    let c ← Scal.mul power tmp
    Scal.mul x c) base.d
  pure ⟨v, d⟩

/-- `sqrt`, algo_diff_type.inc:287-303. -/
def sqrt (radicand : ADT K) : M (ADT K) := do
  let root ← Scal.sqrt radicand.v
  let half_inverse_root ← Scal.baseDiv (Cmath.half : B) root
  let d ← mapD (fun x => Scal.mul x half_inverse_root) radicand.d
  pure ⟨root, d⟩

/-- `log`, algo_diff_type.inc:306-321. -/
def log (xi : ADT K) : M (ADT K) := do
  let temp ← Scal.baseDiv (1 : B) xi.v
  let v ← Scal.log xi.v
  let d ← mapD (fun x => Scal.mul x temp) xi.d
  pure ⟨v, d⟩

/-- `pow(base, power)` with two `AlgoDiffType`s, algo_diff_type.inc:280-284. -/
def pow (base power : ADT K) : M (ADT K) := do
  let l ← log base
  let m ← l.mul power
  exp m

/-- `log10`, algo_diff_type.inc:324-339. -/
def log10 (a : ADT K) : M (ADT K) := do
  let l10 ← Cmath.log ((10 : Nat) : B)
  let t ← Scal.mulBase a.v l10
  let temp ← Scal.baseDiv (1 : B) t
  let v ← Scal.log10 a.v
  let d ← mapD (fun x => Scal.mul x temp) a.d
  pure ⟨v, d⟩

/-- `cos`, algo_diff_type.inc:345-361. -/
def cos (rad : ADT K) : M (ADT K) := do
  let s ← Scal.sin rad.v
  let sin_of_angle ← Scal.neg s
  let v ← Scal.cos rad.v
  let d ← mapD (fun x => Scal.mul x sin_of_angle) rad.d
  pure ⟨v, d⟩

/-- `sin`, algo_diff_type.inc:364-380. -/
def sin (rad : ADT K) : M (ADT K) := do
  let cos_of_angle ← Scal.cos rad.v
  let v ← Scal.sin rad.v
  let d ← mapD (fun x => Scal.mul x cos_of_angle) rad.d
  pure ⟨v, d⟩

/-- `tan`, algo_diff_type.inc:383-401. -/
def tan (rad : ADT K) : M (ADT K) := do
  let c ← Scal.cos rad.v
  let a ← Scal.baseDiv (1 : B) c
  let auxiliary_value ← Scal.mul a a
  let v ← Scal.tan rad.v
  let d ← mapD (fun x => Scal.mul x auxiliary_value) rad.d
  pure ⟨v, d⟩

/-- `atan`, algo_diff_type.inc:442-456. -/
def atan (rad : ADT K) : M (ADT K) := do
  let vv ← Scal.mul rad.v rad.v
  let s ← Scal.baseAdd (1 : B) vv
  let auxiliary_value ← Scal.baseDiv (1 : B) s
  let v ← Scal.atan rad.v
  let d ← mapD (fun x => Scal.mul x auxiliary_value) rad.d
  pure ⟨v, d⟩

end

section
/-! The following do not compile when `Scalar` is itself an `AlgoDiffType` (`1 / b` and
`1 - x` with the `int` literal `1` have no viable operator), so they are modelled for a
built-in scalar only. -/
variable {B : Type} [One B] [Zero B] [Add B] [Sub B] [Mul B] [Neg B] [Cmath B]

/-- `operator/=(const Scalar& b)`, algo_diff_type.inc:187-194. -/
def divAssignScalar (a : ADT B) (b : B) : M (ADT B) := do
  let inverse_b ← Cmath.div 1 b
  let d ← mapD (fun x => pure (x * inverse_b)) a.d
  pure ⟨a.v * inverse_b, d⟩

/-- `operator/(const Scalar& b)`, algo_diff_type.inc:179-183. -/
def divScalar (a : ADT B) (b : B) : M (ADT B) := a.divAssignScalar b

/-- `acos`, algo_diff_type.inc:404-420. -/
def acos (rad : ADT B) : M (ADT B) := do
  let s ← Cmath.sqrt (1 - rad.v * rad.v)
  let auxiliary_value ← Cmath.div (-1) s
  let v ← Cmath.acos rad.v
  let d ← mapD (fun x => pure (x * auxiliary_value)) rad.d
  pure ⟨v, d⟩

/-- `asin`, algo_diff_type.inc:423-439. -/
def asin (rad : ADT B) : M (ADT B) := do
  let s ← Cmath.sqrt (1 - rad.v * rad.v)
  let auxiliary_value ← Cmath.div 1 s
  let v ← Cmath.asin rad.v
  let d ← mapD (fun x => pure (x * auxiliary_value)) rad.d
  pure ⟨v, d⟩

end

end ADT

/-- `AlgoDiffType<K, n>` with a static number `n` of derivatives. -/
def Static (_n : Nat) (K : Type) : Type := ADT K

/-- `AlgoDiffType<B, n>` as `Scalar` of an outer `AlgoDiffType`: the operators and
functions above, found by overload resolution.  `Scalar{1.}` and `Scalar{}` are the
constructors algo_diff_type.hpp:111 and algo_diff_type.hpp:123-124; the mixed operators take a `B`. -/
instance Scal.nested {B : Type} [One B] [NatCast B] [Zero B] [Add B] [Sub B] [Mul B] [Neg B]
    [Cmath B] (n : Nat) : Scal B (Static n B) where
  ofBase c := (ADT.const c n : ADT B)
  zero := (ADT.const 0 n : ADT B)
  add (a b : ADT B) := a.add b
  sub (a b : ADT B) := a.sub b
  mul (a b : ADT B) := a.mul b
  div (a b : ADT B) := a.div b
  neg (a : ADT B) := a.neg
  baseAdd c (x : ADT B) := ADT.scalarAdd c x
  subBase (x : ADT B) c := x.subScalar c
  mulBase (x : ADT B) c := x.mulScalar c
  baseDiv c (x : ADT B) := ADT.scalarDiv c x
  gtBase (x : ADT B) c := Cmath.gt x.v c
  exp (x : ADT B) := x.exp
  log (x : ADT B) := x.log
  log10 (x : ADT B) := x.log10
  sqrt (x : ADT B) := x.sqrt
  sin (x : ADT B) := x.sin
  cos (x : ADT B) := x.cos
  tan (x : ADT B) := x.tan
  atan (x : ADT B) := x.atan
  pow (x y : ADT B) := x.pow y

/-! ## Comparisons -/

/-- The six comparison operators of a type. -/
class Cmp (K : Type) where
  gt : K → K → Bool
  ge : K → K → Bool
  lt : K → K → Bool
  le : K → K → Bool
  eq : K → K → Bool
  ne : K → K → Bool

namespace ADT
variable {K : Type} [Cmp K]

/-- `operator>(const Scalar&)`, algo_diff_type.hpp:273 -/
def gtScalar (a : ADT K) (b : K) : Bool := Cmp.gt a.v b
/-- `operator>=(const Scalar&)`, algo_diff_type.hpp:279 -/
def geScalar (a : ADT K) (b : K) : Bool := Cmp.ge a.v b
/-- `operator<(const Scalar&)`, algo_diff_type.hpp:285 -/
def ltScalar (a : ADT K) (b : K) : Bool := Cmp.lt a.v b
/-- `operator<=(const Scalar&)`, algo_diff_type.hpp:291 -/
def leScalar (a : ADT K) (b : K) : Bool := Cmp.le a.v b
/-- `operator==(const Scalar&)`, algo_diff_type.hpp:297 -/
def eqScalar (a : ADT K) (b : K) : Bool := Cmp.eq a.v b
/-- `operator!=(const Scalar&)`, algo_diff_type.hpp:303 -/
def neScalar (a : ADT K) (b : K) : Bool := Cmp.ne a.v b
/-- `operator>(const Scalar&, const ADT&)`, algo_diff_type.inc:459-462 -/
def scalarGt (a : K) (b : ADT K) : Bool := b.ltScalar a
/-- `operator>=(const Scalar&, const ADT&)`, algo_diff_type.inc:465-469 -/
def scalarGe (a : K) (b : ADT K) : Bool := b.leScalar a
/-- `operator<(const Scalar&, const ADT&)`, algo_diff_type.inc:472-475 -/
def scalarLt (a : K) (b : ADT K) : Bool := b.gtScalar a
/-- `operator<=(const Scalar&, const ADT&)`, algo_diff_type.inc:478-482 -/
def scalarLe (a : K) (b : ADT K) : Bool := b.geScalar a
/-- `operator==(const Scalar&, const ADT&)`, algo_diff_type.inc:485-489 -/
def scalarEq (a : K) (b : ADT K) : Bool := b.eqScalar a
/-- `operator!=(const Scalar&, const ADT&)`, algo_diff_type.inc:492-496 -/
def scalarNe (a : K) (b : ADT K) : Bool := !(b.eqScalar a)

/-- The comparisons of two `AlgoDiffType`s: algo_diff_type.hpp:276 (`>`), 282 (`>=`), 288 (`<`), 294
(`<=`), 300 (`==`), 306 (`!=`).  `<`, `<=` and `!=` compare `v_` with the whole of `b`,
which selects the friend operators. -/
instance cmp : Cmp (ADT K) where
  gt a b := Cmp.gt a.v b.v
  ge a b := Cmp.ge a.v b.v
  lt a b := scalarLt a.v b
  le a b := scalarLe a.v b
  eq a b := Cmp.eq a.v b.v
  ne a b := scalarNe a.v b

end ADT

/-! ## Programs over `AlgoDiffType` -/

/-- A client expression over the operations above, with variables `x_0, x_1, ...`. -/
inductive DExpr (B : Type) where
  /-- an independent variable, `AlgoDiffType(x_i, n, i)` -/
  | var (i : Nat)
  /-- a constant, `AlgoDiffType(c, n)` -/
  | const (c : B)
  | add (a b : DExpr B)
  | sub (a b : DExpr B)
  | mul (a b : DExpr B)
  | div (a b : DExpr B)
  | neg (a : DExpr B)
  | addScalar (a : DExpr B) (c : B)
  | subScalar (a : DExpr B) (c : B)
  | mulScalar (a : DExpr B) (c : B)
  | divScalar (a : DExpr B) (c : B)
  | scalarAdd (c : B) (a : DExpr B)
  | scalarSub (c : B) (a : DExpr B)
  | scalarMul (c : B) (a : DExpr B)
  | scalarDiv (c : B) (a : DExpr B)
  | exp (a : DExpr B)
  | abs (a : DExpr B)
  | powScalar (a : DExpr B) (c : B)
  | pow (a b : DExpr B)
  | sqrt (a : DExpr B)
  | log (a : DExpr B)
  | log10 (a : DExpr B)
  | cos (a : DExpr B)
  | sin (a : DExpr B)
  | tan (a : DExpr B)
  | acos (a : DExpr B)
  | asin (a : DExpr B)
  | atan (a : DExpr B)

/-- Running the expression with `AlgoDiffType<B>`s at the point `x`. -/
def DExpr.run {B : Type} [One B] [NatCast B] [Zero B] [Add B] [Sub B] [Mul B] [Neg B] [Cmath B]
    (x : List B) : DExpr B → M (ADT B)
  | .var i => do
    let xi ← rd x i
    ADT.active xi x.length i
  | .const c => pure (ADT.const c x.length)
  | .add a b => do
    let p ← a.run x
    let q ← b.run x
    p.add q
  | .sub a b => do
    let p ← a.run x
    let q ← b.run x
    p.sub q
  | .mul a b => do
    let p ← a.run x
    let q ← b.run x
    p.mul q
  | .div a b => do
    let p ← a.run x
    let q ← b.run x
    p.div q
  | .neg a => do
    let p ← a.run x
    p.neg
  | .addScalar a c => do
    let p ← a.run x
    p.addScalar c
  | .subScalar a c => do
    let p ← a.run x
    p.subScalar c
  | .mulScalar a c => do
    let p ← a.run x
    p.mulScalar c
  | .divScalar a c => do
    let p ← a.run x
    p.divScalar c
  | .scalarAdd c a => do
    let p ← a.run x
    ADT.scalarAdd c p
  | .scalarSub c a => do
    let p ← a.run x
    ADT.scalarSub c p
  | .scalarMul c a => do
    let p ← a.run x
    ADT.scalarMul c p
  | .scalarDiv c a => do
    let p ← a.run x
    ADT.scalarDiv c p
  | .exp a => do
    let p ← a.run x
    p.exp
  | .abs a => do
    let p ← a.run x
    p.abs
  | .powScalar a c => do
    let p ← a.run x
    p.powScalar c
  | .pow a b => do
    let p ← a.run x
    let q ← b.run x
    p.pow q
  | .sqrt a => do
    let p ← a.run x
    p.sqrt
  | .log a => do
    let p ← a.run x
    p.log
  | .log10 a => do
    let p ← a.run x
    p.log10
  | .cos a => do
    let p ← a.run x
    p.cos
  | .sin a => do
    let p ← a.run x
    p.sin
  | .tan a => do
    let p ← a.run x
    p.tan
  | .acos a => do
    let p ← a.run x
    p.acos
  | .asin a => do
    let p ← a.run x
    p.asin
  | .atan a => do
    let p ← a.run x
    p.atan

/-- Running the expression with `AlgoDiffType<AlgoDiffType<B, n>>`s for second derivatives:
variable `i` is `AlgoDiffType(AlgoDiffType<B, n>(x_i, i), n, i)`, and a plain number `c` is
`AlgoDiffType<B, n>(c)`.  Division by a plain number, `acos` and `asin` do not compile with a
nested type; they are given an error here and excluded by hypothesis in the theorems. -/
def DExpr.runNested {B : Type} [One B] [NatCast B] [Zero B] [Add B] [Sub B] [Mul B] [Neg B] [Cmath B]
    (x : List B) : DExpr B → M (ADT (Static x.length B))
  | .var i => do
    let xi ← rd x i
    let inner ← ADT.active xi x.length i
    ADT.active (inner : Static x.length B) x.length i
  | .const c => pure (ADT.const (Scal.ofBase c) x.length)
  | .add a b => do
    let p ← a.runNested x
    let q ← b.runNested x
    p.add q
  | .sub a b => do
    let p ← a.runNested x
    let q ← b.runNested x
    p.sub q
  | .mul a b => do
    let p ← a.runNested x
    let q ← b.runNested x
    p.mul q
  | .div a b => do
    let p ← a.runNested x
    let q ← b.runNested x
    p.div q
  | .neg a => do
    let p ← a.runNested x
    p.neg
  | .addScalar a c => do
    let p ← a.runNested x
    p.addScalar (Scal.ofBase c)
  | .subScalar a c => do
    let p ← a.runNested x
    p.subScalar (Scal.ofBase c)
  | .mulScalar a c => do
    let p ← a.runNested x
    p.mulScalar (Scal.ofBase c)
  | .divScalar _ _ => .error .ub
  | .scalarAdd c a => do
    let p ← a.runNested x
    ADT.scalarAdd (Scal.ofBase c) p
  | .scalarSub c a => do
    let p ← a.runNested x
    ADT.scalarSub (Scal.ofBase c) p
  | .scalarMul c a => do
    let p ← a.runNested x
    ADT.scalarMul (Scal.ofBase c) p
  | .scalarDiv c a => do
    let p ← a.runNested x
    ADT.scalarDiv (Scal.ofBase c) p
  | .exp a => do
    let p ← a.runNested x
    p.exp
  | .abs a => do
    let p ← a.runNested x
    p.abs
  | .powScalar a c => do
    let p ← a.runNested x
    p.powScalar (Scal.ofBase c)
  | .pow a b => do
    let p ← a.runNested x
    let q ← b.runNested x
    p.pow q
  | .sqrt a => do
    let p ← a.runNested x
    p.sqrt
  | .log a => do
    let p ← a.runNested x
    p.log
  | .log10 a => do
    let p ← a.runNested x
    p.log10
  | .cos a => do
    let p ← a.runNested x
    p.cos
  | .sin a => do
    let p ← a.runNested x
    p.sin
  | .tan a => do
    let p ← a.runNested x
    p.tan
  | .acos _ => .error .ub
  | .asin _ => .error .ub
  | .atan a => do
    let p ← a.runNested x
    p.atan

end Bezman
