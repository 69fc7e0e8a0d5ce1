import Verif.Model.RExpr
import Mathlib.Data.List.Forall2

/-! # Two runs in lockstep

The same model function run over two number systems.  `Par` says when two values correspond, `RelM` when two outcomes do:
the same error, or corresponding results.  A tolerated error corresponds to anything. -/

namespace Bezman

/-- Corresponding values of two runs. -/
class Par (α β : Type) where
  r : α → β → Prop

@[inherit_doc Par] scoped infix:50 " ≋ " => Par.r

instance parNat : Par Nat Nat := ⟨Eq⟩
instance parBool : Par Bool Bool := ⟨Eq⟩
instance parUnit : Par PUnit PUnit := ⟨fun _ _ => True⟩
instance parList {α β : Type} [Par α β] : Par (List α) (List β) := ⟨List.Forall₂ Par.r⟩
instance (priority := high) parListNat : Par (List Nat) (List Nat) := ⟨Eq⟩
instance parProd {α β γ δ : Type} [Par α β] [Par γ δ] : Par (α × γ) (β × δ) := ⟨fun x y => x.1 ≋ y.1 ∧ x.2 ≋ y.2⟩
/-- equal degrees and bookkeeping, corresponding control points -/
instance parSpline {V V' : Type} [Par V V'] : Par (Spline V) (Spline V') :=
  ⟨fun s s' => s.degrees = s'.degrees ∧ s.ncp = s'.ncp ∧ s.offsets = s'.offsets ∧ s.cps ≋ s'.cps⟩
instance parRSpline {K K' V V' : Type} [Par K K'] [Par V V'] : Par (RSpline K V) (RSpline K' V') :=
  ⟨fun r r' => r.num ≋ r'.num ∧ r.wt ≋ r'.wt⟩
instance parPoint {K K' : Type} {n : Nat} [Par K K'] : Par (Point K n) (Point K' n) := ⟨fun a b => ∀ i, a.val i ≋ b.val i⟩

/-- no error is tolerated -/
def strict : Err → Bool := fun _ => false
/-- exceptions are tolerated -/
def mayThrow : Err → Bool := fun e => e == .throws

/-- Corresponding outcomes. -/
inductive RelM (tol : Err → Bool) {α β : Type} [Par α β] : M α → M β → Prop
  | ok {a : α} {b : β} : a ≋ b → RelM tol (.ok a) (.ok b)
  | err (e : Err) : RelM tol (.error e) (.error e)
  | left (e : Err) (y : M β) : tol e = true → RelM tol (.error e) y
  | right (e : Err) (x : M α) : tol e = true → RelM tol x (.error e)

namespace RelM
variable {tol : Err → Bool} {α β γ δ : Type} [Par α β] [Par γ δ]

theorem bind {x : M α} {y : M β} {f : α → M γ} {g : β → M δ} (h : RelM tol x y)
    (hf : ∀ a b, a ≋ b → RelM tol (f a) (g b)) : RelM tol (x >>= f) (y >>= g) := by
  cases h with
  | ok h => exact hf _ _ h
  | err e => exact .err e
  | left e _ ht => exact .left e _ ht
  | right e _ ht => exact .right e _ ht

theorem pure' {a : α} {b : β} (h : a ≋ b) : RelM tol (pure a : M α) (pure b : M β) := .ok h

theorem nat (x : M Nat) : RelM tol x x := by cases x <;> constructor; exact (rfl : _ = _)
theorem listNat (x : M (List Nat)) : RelM tol x x := by cases x <;> constructor; exact (rfl : _ = _)
theorem bool (x : M Bool) : RelM tol x x := by cases x <;> constructor; exact (rfl : _ = _)
theorem unit (x : M PUnit) : RelM tol x x := by cases x <;> constructor; trivial

theorem loop {n : Nat} {f : Nat → α → M α} {g : Nat → β → M β} {a : α} {b : β} (h : a ≋ b)
    (hf : ∀ i a b, a ≋ b → RelM tol (f i a) (g i b)) : RelM tol (Bezman.loop n f a) (Bezman.loop n g b) := by
  induction n with
  | zero => exact .ok h
  | succ n ih => exact bind ih (hf n)

theorem loopFrom {m n : Nat} {f : Nat → α → M α} {g : Nat → β → M β} {a : α} {b : β} (h : a ≋ b)
    (hf : ∀ i a b, a ≋ b → RelM tol (f i a) (g i b)) : RelM tol (Bezman.loopFrom m n f a) (Bezman.loopFrom m n g b) :=
  loop h fun _ => hf _

theorem loopFrom' {m n : Nat} {f : Nat → α → M α} {g : Nat → β → M β} {a : α} {b : β} (h : a ≋ b)
    (hf : ∀ i a b, m ≤ i → a ≋ b → RelM tol (f i a) (g i b)) : RelM tol (Bezman.loopFrom m n f a) (Bezman.loopFrom m n g b) :=
  loop h fun _ _ _ => hf _ _ _ (Nat.le_add_right _ _)

theorem loopDown {n : Nat} {f : Nat → α → M α} {g : Nat → β → M β} {a : α} {b : β} (h : a ≋ b)
    (hf : ∀ i a b, a ≋ b → RelM tol (f i a) (g i b)) : RelM tol (Bezman.loopDown n f a) (Bezman.loopDown n g b) :=
  loop h fun _ => hf _

theorem whileM {n : Nat} {c : α → M Bool} {c' : β → M Bool} {f : α → M α} {g : β → M β} {a : α} {b : β} (h : a ≋ b)
    (hc : ∀ a b, a ≋ b → RelM tol (c a) (c' b)) (hf : ∀ a b, a ≋ b → RelM tol (f a) (g b)) :
    RelM tol (Bezman.whileM n c f a) (Bezman.whileM n c' g b) := by
  induction n generalizing a b with
  | zero => exact .err _
  | succ n ih =>
    have hc' := hc a b h
    simp only [Bezman.whileM]
    cases h1 : c a with
    | error e =>
      cases h2 : c' b with
      | error e' =>
        rw [h1, h2] at hc'
        cases hc' with
        | err => exact .err _
        | left _ _ ht => exact .left _ _ ht
        | right _ _ ht => exact .right _ _ ht
      | ok v =>
        rw [h1, h2] at hc'
        cases hc' with
        | left _ _ ht => exact .left _ _ ht
    | ok u =>
      cases h2 : c' b with
      | error e' =>
        rw [h1, h2] at hc'
        cases hc' with
        | right _ _ ht => exact .right _ _ ht
      | ok v =>
        rw [h1, h2] at hc'
        cases hc' with
        | ok huv =>
          obtain rfl : u = v := huv
          cases u
          · exact .ok h
          · exact bind (hf a b h) fun _ _ h => ih h

theorem rd {l : List α} {l' : List β} (h : l ≋ l') (i : Nat) : RelM tol (Bezman.rd l i) (Bezman.rd l' i) := by
  change List.Forall₂ _ l l' at h
  induction h generalizing i with
  | nil => exact .err _
  | cons h _ ih =>
    cases i with
    | zero => exact .ok h
    | succ i => simpa [Bezman.rd] using ih i

theorem bindRd {l : List α} {l' : List β} (h : l ≋ l') (i : Nat) {f : α → M γ} {g : β → M δ}
    (hf : ∀ a b, l[i]? = some a → l'[i]? = some b → a ≋ b → RelM tol (f a) (g b)) : RelM tol (Bezman.rd l i >>= f) (Bezman.rd l' i >>= g) := by
  have hr := rd (tol := strict) h i
  cases h1 : l[i]? with
  | none =>
    cases h2 : l'[i]? with
    | none => simp only [Bezman.rd, h1, h2]; exact .err _
    | some b =>
      simp only [Bezman.rd, h1, h2] at hr
      cases hr <;> contradiction
  | some a =>
    cases h2 : l'[i]? with
    | none =>
      simp only [Bezman.rd, h1, h2] at hr
      cases hr <;> contradiction
    | some b =>
      simp only [Bezman.rd, h1, h2] at hr ⊢
      cases hr with
      | ok hr => exact hf a b h1 h2 hr

theorem forall₂_set {R : α → β → Prop} {l : List α} {l' : List β} (h : List.Forall₂ R l l') (i : Nat) {a : α} {b : β} (hab : R a b) :
    List.Forall₂ R (l.set i a) (l'.set i b) := by
  induction h generalizing i with
  | nil => exact .nil
  | cons h h' ih =>
    cases i with
    | zero => exact .cons hab h'
    | succ i => exact .cons h (ih i)

theorem wr {l : List α} {l' : List β} (h : l ≋ l') (i : Nat) {a : α} {b : β} (hab : a ≋ b) :
    RelM tol (Bezman.wr l i a) (Bezman.wr l' i b) := by
  have hl := List.Forall₂.length_eq h
  unfold Bezman.wr
  rw [← hl]
  split
  · exact .ok (forall₂_set h i hab)
  · exact .err _

theorem ite {c : Prop} [Decidable c] {x y : M α} {x' y' : M β} (h1 : c → RelM tol x x') (h2 : ¬ c → RelM tol y y') :
    RelM tol (if c then x else y) (if c then x' else y') := by
  split
  · exact h1 ‹_›
  · exact h2 ‹_›

/-- two checks guarding the same call -/
theorem guard {c c' : Prop} [Decidable c] [Decidable c'] {x : M α} {x' : M β} (hc : tol .throws = false → (c ↔ c'))
    (h : ¬ c → ¬ c' → RelM tol x x') : RelM tol (if c then .error .throws else x) (if c' then .error .throws else x') := by
  by_cases h1 : c <;> by_cases h2 : c'
  · rw [if_pos h1, if_pos h2]; exact .err _
  · rw [if_pos h1]
    cases ht : tol .throws
    · exact absurd ((hc ht).1 h1) h2
    · exact .left _ _ ht
  · rw [if_pos h2]
    cases ht : tol .throws
    · exact absurd ((hc ht).2 h2) h1
    · exact .right _ _ ht
  · rw [if_neg h1, if_neg h2]; exact h h1 h2

end RelM

/-- The operations of two scalar types correspond. -/
class ParScalar (K K' : Type) [Par K K'] [Zero K] [One K] [Add K] [Sub K] [Mul K] [Neg K] [Div K] [NatCast K]
    [Zero K'] [One K'] [Add K'] [Sub K'] [Mul K'] [Neg K'] [Div K'] [NatCast K'] : Prop where
  zero : (0 : K) ≋ (0 : K')
  one : (1 : K) ≋ (1 : K')
  add : ∀ {a b : K} {a' b' : K'}, a ≋ a' → b ≋ b' → a + b ≋ a' + b'
  sub : ∀ {a b : K} {a' b' : K'}, a ≋ a' → b ≋ b' → a - b ≋ a' - b'
  mul : ∀ {a b : K} {a' b' : K'}, a ≋ a' → b ≋ b' → a * b ≋ a' * b'
  neg : ∀ {a : K} {a' : K'}, a ≋ a' → -a ≋ -a'
  cast : ∀ n : Nat, (n : K) ≋ (n : K')
  inv : ∀ n : Nat, (1 : K) / (n : K) ≋ (1 : K') / (n : K')
  ratio : ∀ m n : Nat, (m : K) / (n : K) ≋ (m : K') / (n : K')

/-- The operations of two point types correspond. -/
class ParPoint (K K' V V' : Type) [Par K K'] [Par V V'] [Zero V] [Add V] [Sub V] [Neg V] [SMul K V]
    [Zero V'] [Add V'] [Sub V'] [Neg V'] [SMul K' V'] : Prop where
  zero : (0 : V) ≋ (0 : V')
  add : ∀ {a b : V} {a' b' : V'}, a ≋ a' → b ≋ b' → a + b ≋ a' + b'
  sub : ∀ {a b : V} {a' b' : V'}, a ≋ a' → b ≋ b' → a - b ≋ a' - b'
  neg : ∀ {a : V} {a' : V'}, a ≋ a' → -a ≋ -a'
  smul : ∀ {c : K} {c' : K'} {a : V} {a' : V'}, c ≋ c' → a ≋ a' → c • a ≋ c' • a'

instance {K K' : Type} [Par K K'] [Zero K] [One K] [Add K] [Sub K] [Mul K] [Neg K] [Div K] [NatCast K]
    [Zero K'] [One K'] [Add K'] [Sub K'] [Mul K'] [Neg K'] [Div K'] [NatCast K'] [h : ParScalar K K'] : ParPoint K K' K K' :=
  ⟨h.zero, h.add, h.sub, h.neg, h.mul⟩

instance {K K' : Type} {n : Nat} [Par K K'] [Zero K] [One K] [Add K] [Sub K] [Mul K] [Neg K] [Div K] [NatCast K]
    [Zero K'] [One K'] [Add K'] [Sub K'] [Mul K'] [Neg K'] [Div K'] [NatCast K'] [h : ParScalar K K'] :
    ParPoint K K' (Point K n) (Point K' n) :=
  ⟨fun _ => h.zero, fun h1 h2 i => h.add (h1 i) (h2 i), fun h1 h2 i => h.sub (h1 i) (h2 i),
    fun h1 i => h.mul (h1 i) (h.neg h.one), fun h1 h2 i => h.mul (h2 i) h1⟩

/-- Corresponding coordinates of two point types. -/
class ParCoords (K K' V V' : Type) [Par K K'] [Par V V'] [Coords K V] [Coords K' V'] : Prop where
  n_eq : Coords.n K V = Coords.n K' V'
  coord : ∀ {a : V} {a' : V'}, a ≋ a' → ∀ i (h : i < Coords.n K V) (h' : i < Coords.n K' V'),
    (Coords.coord a ⟨i, h⟩ : K) ≋ (Coords.coord a' ⟨i, h'⟩ : K')
  ofCoords : ∀ {f : Fin (Coords.n K V) → K} {f' : Fin (Coords.n K' V') → K'},
    (∀ i (h : i < Coords.n K V) (h' : i < Coords.n K' V'), f ⟨i, h⟩ ≋ f' ⟨i, h'⟩) → (Coords.ofCoords f : V) ≋ (Coords.ofCoords f' : V')

instance {K K' : Type} [Par K K'] : ParCoords K K' K K' := ⟨rfl, fun h _ _ _ => h, fun h => h 0 Nat.one_pos Nat.one_pos⟩
instance {K K' : Type} {n : Nat} [Par K K'] : ParCoords K K' (Point K n) (Point K' n) :=
  ⟨rfl, fun h i hi _ => h ⟨i, hi⟩, fun h i => h i.1 i.2 i.2⟩

/-- Comparisons of the two scalar types agree, unless a failed check is tolerated. -/
class ParOrd (tol : Err → Bool) (K K' : Type) [Par K K'] [LT K] [LT K'] : Prop where
  lt : tol .throws = false → ∀ {a b : K} {a' b' : K'}, a ≋ a' → b ≋ b' → (a < b ↔ a' < b')

end Bezman
