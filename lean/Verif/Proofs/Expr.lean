import Verif.Spec.Expr
import Verif.Props.Arith
import Verif.Props.Box
import Verif.Props.Split
import Verif.Props.Deriv
import Verif.Props.History

/-! # Execution of expressions over splines -/

namespace Bezman
open Spec

theorem modify_eq_set' {α : Type} {l : List α} {d : ℕ} (hd : d < l.length) (f : α → α) : l.modify d f = l.set d (f l[d]) := by
  apply List.ext_getElem
  · simp
  · intro i h1 h2
    rw [List.getElem_modify, List.getElem_set]
    split
    · next h => subst h; rfl
    · rfl

theorem getD_knots (zs : List ℝ) {i : ℕ} (hi : i < zs.length + 2) :
    (0 :: zs ++ [1])[i]? = some ((0 :: zs ++ [1]).getD i 0) := by
  rw [List.getD_eq_getElem?_getD, List.getElem?_eq_getElem (by simp; omega)]
  rfl

variable {n : ℕ} {cfg : Cfg} {σ : Vars ℝ n} {μ : Meaning n}

mutual
theorem SExpr.run_ok (hmax : cfg.maxBinom ≤ 68) (h : μ.Of σ) : ∀ (e : SExpr ℝ n), e.Admissible cfg σ μ →
    ∃ r, e.run cfg σ = .ok r ∧ r.Computes (e.degrees μ) (e.denote μ)
  | .leaf i, _ => ⟨_, rfl, h.s i⟩
  | .add a b, hA => by
    obtain ⟨x, ex, hx⟩ := SExpr.run_ok hmax h a hA.1
    obtain ⟨y, ey, hy⟩ := SExpr.run_ok hmax h b hA.2.1
    obtain ⟨r, er, hr⟩ := Props.C16_add cfg x y _ _ _ _ hx hy hA.2.2
    refine ⟨r, ?_, hr⟩
    simp only [SExpr.run, ex, ey, bind_ok]; exact er
  | .addAssign a b, hA => by
    obtain ⟨x, ex, hx⟩ := SExpr.run_ok hmax h a hA.1
    obtain ⟨y, ey, hy⟩ := SExpr.run_ok hmax h b hA.2.1
    obtain ⟨r, er, hr⟩ := Props.C17_add_assign cfg x y _ _ _ _ hx hy hA.2.2
    refine ⟨r, ?_, hr⟩
    simp only [SExpr.run, ex, ey, bind_ok]; exact er
  | .sub a b, hA => by
    obtain ⟨x, ex, hx⟩ := SExpr.run_ok hmax h a hA.1
    obtain ⟨y, ey, hy⟩ := SExpr.run_ok hmax h b hA.2.1
    obtain ⟨r, er, hr⟩ := Props.C18_sub_partial cfg x y _ _ _ _ hx hy hA.2.2.1 hA.2.2.2
    refine ⟨r, ?_, hr⟩
    simp only [SExpr.run, ex, ey, bind_ok]; exact er
  | .subAssign a b, hA => by
    obtain ⟨x, ex, hx⟩ := SExpr.run_ok hmax h a hA.1
    obtain ⟨y, ey, hy⟩ := SExpr.run_ok hmax h b hA.2.1
    obtain ⟨r, er, hr⟩ := Props.C19_sub_assign cfg x y _ _ _ _ hx hy hA.2.2
    refine ⟨r, ?_, hr⟩
    simp only [SExpr.run, ex, ey, bind_ok]; exact er
  | .neg a, hA => by
    obtain ⟨x, ex, hx⟩ := SExpr.run_ok hmax h a hA
    obtain ⟨r, er, hr⟩ := Props.C20_neg (K := ℝ) x _ _ hx
    refine ⟨r, ?_, hr⟩
    simp only [SExpr.run, ex, bind_ok]; exact er
  | .scale a c, hA => by
    obtain ⟨x, ex, hx⟩ := SExpr.run_ok hmax h a hA
    obtain ⟨r, er, hr⟩ := Props.C20_scale (K := ℝ) x _ _ hx c
    refine ⟨r, ?_, hr⟩
    simp only [SExpr.run, ex, bind_ok]; exact er
  | .addPoint a v, hA => by
    obtain ⟨x, ex, hx⟩ := SExpr.run_ok hmax h a hA
    obtain ⟨r, er, hr⟩ := Props.C20_add_point (K := ℝ) x _ _ hx v
    refine ⟨r, ?_, hr⟩
    simp only [SExpr.run, ex, bind_ok]; exact er
  | .subPoint a v, hA => by
    obtain ⟨x, ex, hx⟩ := SExpr.run_ok hmax h a hA
    obtain ⟨r, er, hr⟩ := Props.C20_sub_point (K := ℝ) x _ _ hx v
    refine ⟨r, ?_, hr⟩
    simp only [SExpr.run, ex, bind_ok]; exact er
  | .pointSub v a, hA => by
    obtain ⟨x, ex, hx⟩ := SExpr.run_ok hmax h a hA
    obtain ⟨r, er, hr⟩ := Props.C20_point_sub (K := ℝ) x _ _ hx v
    refine ⟨r, ?_, hr⟩
    simp only [SExpr.run, ex, bind_ok]; exact er
  | .elevate a d, hA => by
    obtain ⟨x, ex, hx⟩ := SExpr.run_ok hmax h a hA.1
    have e := modify_eq_set' hA.2.1 (· + 1)
    obtain ⟨r, er, hr⟩ := Props.C12_order_elevate (K := ℝ) x _ _ hx d _ (List.getElem?_eq_getElem hA.2.1)
      (by rw [← e]; exact hA.2.2)
    refine ⟨r, ?_, ?_⟩
    · simp only [SExpr.run, ex, bind_ok]; exact er
    · rw [← e] at hr; exact hr
  | .splitLeft a z d, hA => by
    obtain ⟨x, ex, hx⟩ := SExpr.run_ok hmax h a hA.1
    obtain ⟨l, r, er, hl, hr⟩ := Props.C31_split (K := ℝ) x _ _ hx d hA.2.1 z hA.2.2.1 hA.2.2.2
    refine ⟨l, ?_, hl⟩
    simp only [SExpr.run, ex, er, bind_ok]; rfl
  | .splitRight a z d, hA => by
    obtain ⟨x, ex, hx⟩ := SExpr.run_ok hmax h a hA.1
    obtain ⟨l, r, er, hl, hr⟩ := Props.C31_split (K := ℝ) x _ _ hx d hA.2.1 z hA.2.2.1 hA.2.2.2
    refine ⟨r, ?_, hr⟩
    simp only [SExpr.run, ex, er, bind_ok]; rfl
  | .splitPart a zs d i, hA => by
    obtain ⟨x, ex, hx⟩ := SExpr.run_ok hmax h a hA.1
    obtain ⟨l, el, hl, hr⟩ := Props.C33_split_many (K := ℝ) x _ _ hx d hA.2.1 zs hA.2.2.1 hA.2.2.2.1
    have hi : i < l.length := by rw [hl]; exact Nat.lt_succ_of_le hA.2.2.2.2
    refine ⟨l[i], ?_, hr i _ _ _ (List.getElem?_eq_getElem hi) (getD_knots zs ?_) (getD_knots zs ?_)⟩
    · simp only [SExpr.run, ex, el, bind_ok]; exact rd_getElem hi
    · have := hA.2.2.2.2; omega
    · have := hA.2.2.2.2; omega
  | .deriv a orders, hA => by
    obtain ⟨x, ex, hx⟩ := SExpr.run_ok hmax h a hA.1
    obtain ⟨r, er, hr⟩ := Props.C13_derivative_spline (𝕜 := ℝ) cfg hmax x _ _ hx orders hA.2.1 hA.2.2.1 hA.2.2.2.1 hA.2.2.2.2
    refine ⟨r, ?_, hr⟩
    simp only [SExpr.run, ex, bind_ok]; exact er
  | .compose a b, hA => by
    obtain ⟨x, ex, hx⟩ := SExpr.run_ok hmax h a hA.1
    obtain ⟨y, ey, hy⟩ := PExpr.run_ok hmax h b hA.2.1
    obtain ⟨r, er, hr⟩ := Props.C26_compose (K := ℝ) cfg hmax x y _ _ _ _ hx hy hA.2.2.1 (hA.2.2.2.1 y ey) hA.2.2.2.2.1
      hA.2.2.2.2.2
    refine ⟨r, ?_, hr⟩
    simp only [SExpr.run, ex, ey, bind_ok]; exact er
  | .composeScalar a b, hA => by
    obtain ⟨x, ex, hx⟩ := SExpr.run_ok hmax h a hA.1
    obtain ⟨y, ey, hy⟩ := SExpr.run_ok hmax h b hA.2.1
    obtain ⟨r, er, hr⟩ := Props.C26_compose (K := ℝ) cfg hmax x y _ _ _ _ hx hy hA.2.2.1 (hA.2.2.2.1 y ey) hA.2.2.2.2.1
      hA.2.2.2.2.2
    refine ⟨r, ?_, hr⟩
    simp only [SExpr.run, ex, ey, bind_ok]; exact er
  | .mul a b, hA => by
    obtain ⟨x, ex, hx⟩ := SExpr.run_ok hmax h a hA.1
    obtain ⟨y, ey, hy⟩ := SExpr.run_ok hmax h b hA.2.1
    obtain ⟨r, er, hr⟩ := Props.C21_mul_scalar cfg hmax x y _ _ _ _ hx hy hA.2.2.1 hA.2.2.2
    refine ⟨r, ?_, hr⟩
    simp only [SExpr.run, ex, ey, bind_ok]; exact er
  | .dot a b, hA => by
    obtain ⟨x, ex, hx⟩ := PExpr.run_ok hmax h a hA.1
    obtain ⟨y, ey, hy⟩ := PExpr.run_ok hmax h b hA.2.1
    obtain ⟨r, er, hr⟩ := Props.C21_mul_dot cfg hmax x y _ _ _ _ hx hy hA.2.2.1 hA.2.2.2
    refine ⟨r, ?_, hr⟩
    simp only [SExpr.run, ex, ey, bind_ok]; exact er
  | .power a k, hA => by
    obtain ⟨x, ex, hx⟩ := SExpr.run_ok hmax h a hA.1
    obtain ⟨r, er, hr⟩ := Props.C22_raise_power cfg hmax x _ _ hx k hA.2
    refine ⟨r, ?_, hr⟩
    simp only [SExpr.run, ex, bind_ok]; exact er
  | .extract a j, hA => by
    obtain ⟨x, ex, hx⟩ := PExpr.run_ok hmax h a hA.1
    obtain ⟨r, er, hr⟩ := Props.C23_extract (K := ℝ) x _ _ hx ⟨j, hA.2⟩
    refine ⟨r, ?_, hr.congr fun t _ => ?_⟩
    · simp only [SExpr.run, ex, bind_ok]; exact er
    · simp only [SExpr.denote]; rw [dif_pos hA.2]; rfl

theorem PExpr.run_ok (hmax : cfg.maxBinom ≤ 68) (h : μ.Of σ) : ∀ (e : PExpr ℝ n), e.Admissible cfg σ μ →
    ∃ r, e.run cfg σ = .ok r ∧ r.Computes (e.degrees μ) (e.denote μ)
  | .leaf i, _ => ⟨_, rfl, h.p i⟩
  | .add a b, hA => by
    obtain ⟨x, ex, hx⟩ := PExpr.run_ok hmax h a hA.1
    obtain ⟨y, ey, hy⟩ := PExpr.run_ok hmax h b hA.2.1
    obtain ⟨r, er, hr⟩ := Props.C16_add cfg x y _ _ _ _ hx hy hA.2.2
    refine ⟨r, ?_, hr⟩
    simp only [PExpr.run, ex, ey, bind_ok]; exact er
  | .addAssign a b, hA => by
    obtain ⟨x, ex, hx⟩ := PExpr.run_ok hmax h a hA.1
    obtain ⟨y, ey, hy⟩ := PExpr.run_ok hmax h b hA.2.1
    obtain ⟨r, er, hr⟩ := Props.C17_add_assign cfg x y _ _ _ _ hx hy hA.2.2
    refine ⟨r, ?_, hr⟩
    simp only [PExpr.run, ex, ey, bind_ok]; exact er
  | .sub a b, hA => by
    obtain ⟨x, ex, hx⟩ := PExpr.run_ok hmax h a hA.1
    obtain ⟨y, ey, hy⟩ := PExpr.run_ok hmax h b hA.2.1
    obtain ⟨r, er, hr⟩ := Props.C18_sub_partial cfg x y _ _ _ _ hx hy hA.2.2.1 hA.2.2.2
    refine ⟨r, ?_, hr⟩
    simp only [PExpr.run, ex, ey, bind_ok]; exact er
  | .subAssign a b, hA => by
    obtain ⟨x, ex, hx⟩ := PExpr.run_ok hmax h a hA.1
    obtain ⟨y, ey, hy⟩ := PExpr.run_ok hmax h b hA.2.1
    obtain ⟨r, er, hr⟩ := Props.C19_sub_assign cfg x y _ _ _ _ hx hy hA.2.2
    refine ⟨r, ?_, hr⟩
    simp only [PExpr.run, ex, ey, bind_ok]; exact er
  | .neg a, hA => by
    obtain ⟨x, ex, hx⟩ := PExpr.run_ok hmax h a hA
    obtain ⟨r, er, hr⟩ := Props.C20_neg (K := ℝ) x _ _ hx
    refine ⟨r, ?_, hr⟩
    simp only [PExpr.run, ex, bind_ok]; exact er
  | .scale a c, hA => by
    obtain ⟨x, ex, hx⟩ := PExpr.run_ok hmax h a hA
    obtain ⟨r, er, hr⟩ := Props.C20_scale (K := ℝ) x _ _ hx c
    refine ⟨r, ?_, hr⟩
    simp only [PExpr.run, ex, bind_ok]; exact er
  | .addPoint a v, hA => by
    obtain ⟨x, ex, hx⟩ := PExpr.run_ok hmax h a hA
    obtain ⟨r, er, hr⟩ := Props.C20_add_point (K := ℝ) x _ _ hx v
    refine ⟨r, ?_, hr⟩
    simp only [PExpr.run, ex, bind_ok]; exact er
  | .subPoint a v, hA => by
    obtain ⟨x, ex, hx⟩ := PExpr.run_ok hmax h a hA
    obtain ⟨r, er, hr⟩ := Props.C20_sub_point (K := ℝ) x _ _ hx v
    refine ⟨r, ?_, hr⟩
    simp only [PExpr.run, ex, bind_ok]; exact er
  | .pointSub v a, hA => by
    obtain ⟨x, ex, hx⟩ := PExpr.run_ok hmax h a hA
    obtain ⟨r, er, hr⟩ := Props.C20_point_sub (K := ℝ) x _ _ hx v
    refine ⟨r, ?_, hr⟩
    simp only [PExpr.run, ex, bind_ok]; exact er
  | .elevate a d, hA => by
    obtain ⟨x, ex, hx⟩ := PExpr.run_ok hmax h a hA.1
    have e := modify_eq_set' hA.2.1 (· + 1)
    obtain ⟨r, er, hr⟩ := Props.C12_order_elevate (K := ℝ) x _ _ hx d _ (List.getElem?_eq_getElem hA.2.1)
      (by rw [← e]; exact hA.2.2)
    refine ⟨r, ?_, ?_⟩
    · simp only [PExpr.run, ex, bind_ok]; exact er
    · rw [← e] at hr; exact hr
  | .splitLeft a z d, hA => by
    obtain ⟨x, ex, hx⟩ := PExpr.run_ok hmax h a hA.1
    obtain ⟨l, r, er, hl, hr⟩ := Props.C31_split (K := ℝ) x _ _ hx d hA.2.1 z hA.2.2.1 hA.2.2.2
    refine ⟨l, ?_, hl⟩
    simp only [PExpr.run, ex, er, bind_ok]; rfl
  | .splitRight a z d, hA => by
    obtain ⟨x, ex, hx⟩ := PExpr.run_ok hmax h a hA.1
    obtain ⟨l, r, er, hl, hr⟩ := Props.C31_split (K := ℝ) x _ _ hx d hA.2.1 z hA.2.2.1 hA.2.2.2
    refine ⟨r, ?_, hr⟩
    simp only [PExpr.run, ex, er, bind_ok]; rfl
  | .splitPart a zs d i, hA => by
    obtain ⟨x, ex, hx⟩ := PExpr.run_ok hmax h a hA.1
    obtain ⟨l, el, hl, hr⟩ := Props.C33_split_many (K := ℝ) x _ _ hx d hA.2.1 zs hA.2.2.1 hA.2.2.2.1
    have hi : i < l.length := by rw [hl]; exact Nat.lt_succ_of_le hA.2.2.2.2
    refine ⟨l[i], ?_, hr i _ _ _ (List.getElem?_eq_getElem hi) (getD_knots zs ?_) (getD_knots zs ?_)⟩
    · simp only [PExpr.run, ex, el, bind_ok]; exact rd_getElem hi
    · have := hA.2.2.2.2; omega
    · have := hA.2.2.2.2; omega
  | .deriv a orders, hA => by
    obtain ⟨x, ex, hx⟩ := PExpr.run_ok hmax h a hA.1
    obtain ⟨r, er, hr⟩ := Props.C13_derivative_spline (𝕜 := ℝ) cfg hmax x _ _ hx orders hA.2.1 hA.2.2.1 hA.2.2.2.1 hA.2.2.2.2
    refine ⟨r, ?_, hr⟩
    simp only [PExpr.run, ex, bind_ok]; exact er
  | .compose a b, hA => by
    obtain ⟨x, ex, hx⟩ := PExpr.run_ok hmax h a hA.1
    obtain ⟨y, ey, hy⟩ := PExpr.run_ok hmax h b hA.2.1
    obtain ⟨r, er, hr⟩ := Props.C26_compose (K := ℝ) cfg hmax x y _ _ _ _ hx hy hA.2.2.1 (hA.2.2.2.1 y ey) hA.2.2.2.2.1
      hA.2.2.2.2.2
    refine ⟨r, ?_, hr⟩
    simp only [PExpr.run, ex, ey, bind_ok]; exact er
  | .composeScalar a b, hA => by
    obtain ⟨x, ex, hx⟩ := PExpr.run_ok hmax h a hA.1
    obtain ⟨y, ey, hy⟩ := SExpr.run_ok hmax h b hA.2.1
    obtain ⟨r, er, hr⟩ := Props.C26_compose (K := ℝ) cfg hmax x y _ _ _ _ hx hy hA.2.2.1 (hA.2.2.2.1 y ey) hA.2.2.2.2.1
      hA.2.2.2.2.2
    refine ⟨r, ?_, hr⟩
    simp only [PExpr.run, ex, ey, bind_ok]; exact er
  | .mulLeft a b, hA => by
    obtain ⟨x, ex, hx⟩ := SExpr.run_ok hmax h a hA.1
    obtain ⟨y, ey, hy⟩ := PExpr.run_ok hmax h b hA.2.1
    obtain ⟨r, er, hr⟩ := Props.C21_mul_scalar_point cfg hmax x y _ _ _ _ hx hy hA.2.2.1 hA.2.2.2
    refine ⟨r, ?_, hr⟩
    simp only [PExpr.run, ex, ey, bind_ok]; exact er
  | .mulRight a b, hA => by
    obtain ⟨x, ex, hx⟩ := PExpr.run_ok hmax h a hA.1
    obtain ⟨y, ey, hy⟩ := SExpr.run_ok hmax h b hA.2.1
    obtain ⟨r, er, hr⟩ := Props.C21_mul_point_scalar cfg hmax x y _ _ _ _ hx hy hA.2.2.1 hA.2.2.2
    refine ⟨r, ?_, hr⟩
    simp only [PExpr.run, ex, ey, bind_ok]; exact er
end

end Bezman
