import Verif.Model.Point
import Mathlib.Algebra.BigOperators.Fin
import Mathlib.Algebra.Module.Defs
import Mathlib.Tactic.Ring
import Mathlib.Algebra.Field.Defs
import Mathlib.Algebra.Module.LinearMap.Basic
import Mathlib.Algebra.Module.Submodule.Bilinear

/-! `Point` is a vector space; laws of coordinate access. -/

namespace Bezman
namespace Point
variable {K : Type} {n : ℕ}

@[simp] theorem val_zero [Zero K] (i : Fin n) : (0 : Point K n).val i = 0 := rfl
@[simp] theorem val_add [Add K] (a b : Point K n) (i : Fin n) : (a + b).val i = a.val i + b.val i := rfl
@[simp] theorem val_sub [Sub K] (a b : Point K n) (i : Fin n) : (a - b).val i = a.val i - b.val i := rfl
theorem val_smul' [Mul K] (c : K) (a : Point K n) (i : Fin n) : (c • a).val i = a.val i * c := rfl
@[simp] theorem val_smul [CommRing K] (c : K) (a : Point K n) (i : Fin n) :
    (c • a).val i = c * a.val i := by rw [val_smul', mul_comm]
@[simp] theorem val_neg [CommRing K] (a : Point K n) (i : Fin n) : (-a).val i = -a.val i := by
  show ((-1 : K) • a).val i = _; simp

instance [CommRing K] : AddCommGroup (Point K n) where
  add_assoc a b c := by ext i; simp [add_assoc]
  zero_add a := by ext i; simp
  add_zero a := by ext i; simp
  add_comm a b := by ext i; simp [add_comm]
  neg_add_cancel a := by ext i; simp
  sub_eq_add_neg a b := by ext i; simp [sub_eq_add_neg]
  nsmul := nsmulRec
  zsmul := zsmulRec

instance [CommRing K] : Module K (Point K n) where
  one_smul a := by ext i; simp
  mul_smul c d a := by ext i; simp [mul_assoc]
  smul_zero c := by ext i; simp
  smul_add c a b := by ext i; simp [mul_add]
  add_smul c d a := by ext i; simp [add_mul]
  zero_smul a := by ext i; simp

theorem accumulate_eq [CommRing K] (f : Fin n → K) : accumulate f = ∑ i, f i := by
  unfold accumulate
  have : ∀ (l : List (Fin n)) (c : K), l.foldl (fun r i => r + f i) c = c + (l.map f).sum := by
    intro l
    induction l with
    | nil => intro c; simp
    | cons x l ih => intro c; simp [ih, add_assoc]
  rw [this, zero_add, ← List.sum_ofFn]
  congr 1
  rw [List.ofFn_eq_map]

theorem dot_eq [CommRing K] (a b : Point K n) : dot a b = ∑ i, a.val i * b.val i := accumulate_eq _

theorem squaredNorm_eq [CommRing K] (a : Point K n) : squaredNorm a = ∑ i, a.val i * a.val i :=
  accumulate_eq _

/-- dot product as a bilinear map -/
def dotB (K : Type) [CommRing K] (n : ℕ) : Point K n →ₗ[K] Point K n →ₗ[K] K :=
  LinearMap.mk₂ K dot
    (by intro a b c; simp only [dot_eq, ← Finset.sum_add_distrib]; apply Finset.sum_congr rfl; intros; simp; ring)
    (by intro c a b; simp only [dot_eq, smul_eq_mul, Finset.mul_sum]; apply Finset.sum_congr rfl; intros; simp; ring)
    (by intro a b c; simp only [dot_eq, ← Finset.sum_add_distrib]; apply Finset.sum_congr rfl; intros; simp; ring)
    (by intro c a b; simp only [dot_eq, smul_eq_mul, Finset.mul_sum]; apply Finset.sum_congr rfl; intros; simp; ring)

end Point

/-- Laws relating coordinates and the vector space structure. -/
class LawfulCoords (K V : Type) [CommRing K] [AddCommGroup V] [Module K V] [Coords K V] : Prop where
  coord_ofCoords : ∀ (f : Fin (Coords.n K V) → K) j, Coords.coord (V := V) (Coords.ofCoords f) j = f j
  ext : ∀ x y : V, (∀ j : Fin (Coords.n K V), (Coords.coord x j : K) = Coords.coord y j) → x = y
  coord_add : ∀ (x y : V) (j : Fin (Coords.n K V)), (Coords.coord (x + y) j : K) = Coords.coord x j + Coords.coord y j
  coord_smul : ∀ (c : K) (x : V) (j : Fin (Coords.n K V)), (Coords.coord (c • x) j : K) = c * Coords.coord x j

instance (K : Type) [CommRing K] : LawfulCoords K K where
  coord_ofCoords f j := congrArg f (Subsingleton.elim (α := Fin 1) _ _)
  ext x y h := h (0 : Fin 1)
  coord_add _ _ _ := rfl
  coord_smul _ _ _ := rfl

instance (K : Type) [CommRing K] (n : ℕ) : LawfulCoords K (Point K n) where
  coord_ofCoords _ _ := rfl
  ext x y h := Point.ext (funext h)
  coord_add _ _ _ := rfl
  coord_smul c x j := Point.val_smul c x j

namespace LawfulCoords
variable {K V : Type} [CommRing K] [AddCommGroup V] [Module K V] [Coords K V] [LawfulCoords K V]

/-- coordinate `j` as a linear map -/
def coordL (K : Type) {V : Type} [CommRing K] [AddCommGroup V] [Module K V] [Coords K V] [LawfulCoords K V]
    (j : Fin (Coords.n K V)) : V →ₗ[K] K where
  toFun x := Coords.coord x j
  map_add' x y := coord_add x y j
  map_smul' c x := coord_smul c x j

theorem coordL_apply (j : Fin (Coords.n K V)) (x : V) : coordL K j x = Coords.coord x j := rfl

theorem coord_sub (x y : V) (j : Fin (Coords.n K V)) :
    (Coords.coord (x - y) j : K) = Coords.coord x j - Coords.coord y j := (coordL K j).map_sub x y
theorem coord_neg (x : V) (j : Fin (Coords.n K V)) :
    (Coords.coord (-x) j : K) = -Coords.coord x j := (coordL K j).map_neg x
theorem coord_zero (j : Fin (Coords.n K V)) : (Coords.coord (0 : V) j : K) = 0 := (coordL K j).map_zero

end LawfulCoords
end Bezman
