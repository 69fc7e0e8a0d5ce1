import Verif.Model.ThreadsMixed
import Verif.Proofs.ThreadsRational

/-! # The calls of polynomial and rational splines in one thread -/

namespace Bezman.Threads
open Spec Messages
open Said (lift say terminate loopS whileS)

variable {K V : Type}

theorem polite_among {α ρ σ τ : Type} {as : σ → M α} {into : α → σ} {out : ρ → τ} {c : Call α ρ} (hc : Polite c) :
    Polite (c.among as into out) := by
  intro xs h x hx
  simp only [Call.among] at h hx
  rcases hxs : xs.mapM as with e | ys
  · rw [hxs] at hx
    simp at hx
  · rw [hxs] at h hx
    refine hc ys (fun e => h ?_) x hx
    simp [e, Except.map]

theorem ann_typed {α β : Type} {l : List α} {i : ℕ} {as : α → M β} (h : ∀ x, NoThrow (as x)) : Announces (Said.lift (rd l i >>= as)) :=
  .lift (.bind (NoThrow.rd _ _) fun x => h x)

theorem asPoly_noThrow : ∀ x : Obj K V, NoThrow x.asPoly := by rintro (_ | _ | _) <;> exact ⟨by simp [Obj.asPoly]⟩
theorem asNum_noThrow : ∀ x : Obj K V, NoThrow x.asNum := by rintro (_ | _ | _) <;> exact ⟨by simp [Obj.asNum]⟩
theorem asRat_noThrow : ∀ x : Obj K V, NoThrow x.asRat := by rintro (_ | _ | _) <;> exact ⟨by simp [Obj.asRat]⟩

theorem noThrow_ofSpline [One K] (s : Spline V) : NoThrow (RSpline.ofSpline (K := K) s) := by
  unfold RSpline.ofSpline; nothrow [NoThrow.ofPoints]

section
variable [Zero K] [One K] [Add K] [Sub K] [Neg K] [Mul K] [Div K] [NatCast K] [LT K] [DecidableLT K] [BEq K] [Zero V] [Add V]
  [Sub V] [Neg V] [SMul K V] [ScalarDiv K V] [Coords K V]

/-- these calls send no error messages, unless they throw -/
theorem mop_polite (cfg : Cfg) (tx : K → String) (o : MOp K V) (ho : ∀ k i j b, o ≠ .composeRational k i j b) : Polite (o.call cfg tx) := by
  cases o with
  | poly o => exact polite_among fun xs h => op_said cfg tx o xs h
  | num o => exact polite_among fun xs h => op_said cfg tx o xs h
  | product k i j =>
    exact polite_among fun xs h => heard_polite _ _ (.bind ann_rd fun _ => .bind ann_rd fun _ => .lift (NoThrow.mulScalar _ _ _))
      (.bind (.lift _) fun _ => .bind (.lift _) fun _ => .lift _) h
  | rat o => exact polite_among (rop_polite cfg tx o)
  | promote k j =>
    exact fun xs h => heard_polite _ _ (.bind (ann_typed asPoly_noThrow) fun _ => .lift (noThrow_ofSpline _)) (.bind (.lift _) fun _ => .lift _) h
  | assemble k i j =>
    exact fun xs h => heard_polite _ _ (.bind (ann_typed asPoly_noThrow) fun _ => .bind (ann_typed asNum_noThrow) fun _ => .lift (NoThrow.ofSplines _ _))
      (.bind (.lift _) fun _ => .bind (.lift _) fun _ => .lift _) h
  | weights k j => exact fun xs h => heard_polite _ _ (ann_typed asRat_noThrow) (.lift _) h
  | numerator k j => exact fun xs h => heard_polite _ _ (ann_typed asRat_noThrow) (.lift _) h
  | weigh k i j =>
    exact fun xs h => heard_polite _ _ (.bind (ann_typed asPoly_noThrow) fun _ => .bind (ann_typed asNum_noThrow) fun _ => .lift (NoThrow.mulWeight' _ _ _))
      (.bind (.lift _) fun _ => .bind (.lift _) fun _ => .lift _) h
  | composeNum k i j =>
    exact fun xs h => heard_polite _ _ (.bind (ann_typed asPoly_noThrow) fun _ => .bind (ann_typed asNum_noThrow) fun _ => ann_compose _ _ _ _)
      (.bind (.lift _) fun _ => .bind (.lift _) fun _ => mild_compose _ _ _ _) h
  | composePoly k i j b =>
    exact fun xs h => heard_polite _ _ (.bind (ann_typed asRat_noThrow) fun _ => .bind (ann_typed asPoly_noThrow) fun _ => ann_rCompose _ _ _ _)
      (.bind (.lift _) fun _ => .bind (.lift _) fun _ => .bind (mild_compose _ _ _ _) fun _ => .bind (mild_compose _ _ _ _) fun _ => .lift _) h
  | composeRational k i j b => exact absurd rfl (ho k i j b)

end
end Bezman.Threads
