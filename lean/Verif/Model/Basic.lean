/-!
# Outcomes, checked memory access and loops

The vocabulary in which the C++ functions are modelled.  None of this has a
counterpart in `/repo`: it is the meaning given to C++ constructs.
-/

namespace Bezman

/-- Ways in which a C++ call can fail to return a value. -/
inductive Err
  /-- undefined behaviour: out-of-range access, integer division by zero -/
  | ub
  /-- a failed `assert` -/
  | assertFail
  /-- `Logger::TerminatingError` (throws `std::runtime_error`) -/
  | throws
  /-- an integer conversion that does not preserve the value -/
  | narrowing
  /-- a scalar division by zero. (With IEEE arithmetic it yields infinities or NaNs,
  which are not numbers of the modelled scalar type.) -/
  | divZero
  /-- a `<cmath>` function called outside its domain (a NaN or an infinity in IEEE
  arithmetic) -/
  | domain
  /-- a `while` loop or recursion that did not finish in the given number of rounds -/
  | outOfFuel
deriving DecidableEq, Repr

/-- Result of a C++ call. -/
abbrev M := Except Err



/-- `l[i]` of a `std::vector` / `std::array`; out of range is undefined behaviour. -/
def rd {α : Type} (l : List α) (i : Nat) : M α :=
  match l[i]? with
  | some x => .ok x
  | none => .error .ub

/-- `l[i] = x`; out of range is undefined behaviour. -/
def wr {α : Type} (l : List α) (i : Nat) (x : α) : M (List α) :=
  if i < l.length then .ok (l.set i x) else .error .ub

/-- `assert(b)` in a build with assertions. -/
def assertM (b : Bool) : M PUnit := if b then .ok ⟨⟩ else .error .assertFail

/-- unsigned integer division; by zero it is undefined behaviour. -/
def divU (a b : Nat) : M Nat := if b = 0 then .error .ub else .ok (a / b)

/-- unsigned integer remainder; by zero it is undefined behaviour. -/
def modU (a b : Nat) : M Nat := if b = 0 then .error .ub else .ok (a % b)

/-- conversion to `int`/`unsigned int` of a non-negative value. Values that do
not fit below `2^31` are reported instead of being truncated. -/
def narrow (a : Nat) : M Nat := if a < 2 ^ 31 then .ok a else .error .narrowing

/-- `for (i = 0; i < n; i++) s = f(i, s)` -/
def loop {σ : Type} : Nat → (Nat → σ → M σ) → σ → M σ
  | 0, _, s => .ok s
  | n + 1, f, s => (loop n f s) >>= fun s' => f n s'

/-- `for (i = a; i < b; i++) s = f(i, s)` -/
def loopFrom {σ : Type} (a b : Nat) (f : Nat → σ → M σ) (s : σ) : M σ :=
  loop (b - a) (fun k s => f (a + k) s) s

/-- `for (i = n - 1; i >= 0; i--) s = f(i, s)` -/
def loopDown {σ : Type} (n : Nat) (f : Nat → σ → M σ) (s : σ) : M σ :=
  loop n (fun k s => f (n - 1 - k) s) s

/-- `while (c(s)) s = f(s)`, for at most `fuel` rounds. -/
def whileM {σ : Type} : Nat → (σ → M Bool) → (σ → M σ) → σ → M σ
  | 0, _, _, _ => .error .outOfFuel
  | n + 1, c, f, s => do
    match c s with
    | .error e => .error e
    | .ok false => .ok s
    | .ok true => (f s) >>= whileM n c f

/-- `size_t` arithmetic -/
def add64 (a b : Nat) : Nat := (a + b) % 2 ^ 64
/-- `size_t` arithmetic -/
def mul64 (a b : Nat) : Nat := (a * b) % 2 ^ 64
/-- `size_t` subtraction, wrapping below zero -/
def sub64 (a b : Nat) : Nat := (a + (2 ^ 64 - b % 2 ^ 64)) % 2 ^ 64

end Bezman
