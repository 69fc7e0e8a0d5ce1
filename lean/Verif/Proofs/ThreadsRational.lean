import Verif.Model.ThreadsRational
import Verif.Proofs.ThreadsOps

/-! # The calls of rational splines in a thread -/

namespace Bezman.Threads
open Spec Messages
open Said (lift say terminate loopS whileS)

variable {K V : Type}

/-- a call that sends only messages of the two kinds `logging` and `extended`, unless it throws -/
def Polite {α ρ : Type} (c : Call α ρ) : Prop :=
  ∀ xs, (c.run xs).2 ≠ .error .throws → ∀ x ∈ (c.run xs).1, x.1 = .logging ∨ x.1 = .extended

theorem heard_polite {α ρ β : Type} (x : Said β) (f : β → List α × List ρ) (ha : Announces x) (hm : Mild x) (ht : (heard x f).2 ≠ .error .throws) :
    ∀ y ∈ (heard x f).1, y.1 = .logging ∨ y.1 = .extended := by
  intro y hy
  obtain ⟨m, h1, rfl⟩ := List.mem_map.mp hy
  have h2 : ∀ m ∈ x.log, m.kind ≠ .terminating := by
    rcases ha with ⟨e, _⟩ | ⟨_, e⟩
    · exact absurd (by simp [heard, e, Except.map]) ht
    · exact e
  have h3 := h2 m h1
  have h4 := hm m h1
  cases hk : m.kind <;> simp_all [LogKind.of]

section
variable [Zero K] [One K] [Add K] [Sub K] [Neg K] [Mul K] [Div K] [NatCast K] [Zero V] [Add V] [SMul K V]

omit [Neg K] in
theorem mild_rOrderElevate (r : RSpline K V) (d : ℕ) : Mild (rOrderElevate r d) :=
  .bind (mild_orderElevate _ _) fun _ => .bind (mild_orderElevate _ _) fun _ => .bind (.lift _) fun _ => .pure _

omit [Neg K] [Div K] [NatCast K] in
theorem mild_rSplitAt [LT K] [DecidableLT K] (tx : K → String) (r : RSpline K V) (z : K) (d : ℕ) : Mild (rSplitAt tx r z d) :=
  .bind (mild_splitAt _ _ _ _) fun _ => .bind (mild_splitAt _ _ _ _) fun _ => .bind (.lift _) fun _ => .bind (.lift _) fun _ => .pure _

section
variable [BEq K]

omit [Neg K] in
theorem mild_rAddOp (cfg : Cfg) (r q : RSpline K V) : Mild (rAddOp cfg r q) := by
  unfold rAddOp
  split
  · exact .bind (mild_addAux _ _ _ _) fun _ => .lift _
  · exact .bind (.lift _) fun _ => .bind (.lift _) fun _ => .bind (mild_addAux _ _ _ _) fun _ => .bind (.lift _) fun _ => .lift _

omit [Neg K] in
theorem mild_rAddAssign (cfg : Cfg) (r q : RSpline K V) : Mild (rAddAssign cfg r q) := by
  unfold rAddAssign
  split
  · exact .bind (mild_addAssign _ _ _) fun _ => .pure _
  · exact .bind (.lift _) fun _ => .bind (.lift _) fun _ => .bind (mild_addAssign _ _ _) fun _ => .bind (.lift _) fun _ =>
      .bind (.lift _) fun _ => .pure _

omit [Neg K] in
theorem mild_rSubOp [Sub V] (cfg : Cfg) (r q : RSpline K V) : Mild (rSubOp cfg r q) := by
  unfold rSubOp
  split
  · exact .bind (mild_subOp _ _ _) fun _ => .lift _
  · exact .bind (.lift _) fun _ => .bind (.lift _) fun _ => .bind (mild_subOp _ _ _) fun _ => .bind (.lift _) fun _ => .lift _

omit [Neg K] in
theorem mild_rSubAssign [Sub V] (cfg : Cfg) (r q : RSpline K V) : Mild (rSubAssign cfg r q) := by
  unfold rSubAssign
  split
  · exact .bind (mild_subAssign _ _ _) fun _ => .pure _
  · exact .bind (.lift _) fun _ => .bind (.lift _) fun _ => .bind (mild_subAssign _ _ _) fun _ => .bind (.lift _) fun _ =>
      .bind (.lift _) fun _ => .pure _
end

theorem mild_rDerivativeSpline [Sub V] (cfg : Cfg) (r : RSpline K V) (o : List ℕ) : Mild (rDerivativeSpline cfg r o) :=
  Mild.loopS (fun _ _ => .bind (.lift _) fun _ => Mild.loopS (fun _ _ => .bind (.lift _) fun _ => .bind (mild_derivativeSpline _ _ _) fun _ =>
    .bind (.lift _) fun _ => .bind (mild_derivativeSpline _ _ _) fun _ => .bind (.lift _) fun _ => .bind (mild_subOp _ _ _) fun _ =>
    .bind (mild_orderElevate _ _) fun _ => .bind (.lift _) fun _ => .lift _) _ _) _ _

section
variable [Coords K V]

theorem mild_composeNumeratorRational {U : Type} [Zero U] [Add U] [SMul K U] (cfg : Cfg) (b : Bool) (s : Spline U) (i : RSpline K V) :
    Mild (composeNumeratorRational cfg b s i) :=
  .bind (.lift _) fun _ => .bind (Mild.loopS (fun _ _ => .bind (.lift _) fun _ => .bind (mild_extractDimension _ _ _) fun _ =>
    .bind (mild_subOp _ _ _) fun _ => .bind (.lift _) fun _ => .lift _) _ _) fun _ => .lift _

theorem mild_rComposeRational (cfg : Cfg) (b : Bool) (r i : RSpline K V) : Mild (rComposeRational cfg b r i) :=
  .bind (mild_composeNumeratorRational _ _ _ _) fun _ => .bind (mild_composeNumeratorRational _ _ _ _) fun _ => .lift _

variable [BEq K] [ScalarDiv K V] [LT K] [DecidableLT K]

omit [One K] [Add K] [Sub K] [Neg K] [Mul K] [Div K] [NatCast K] [Zero V] [Add V] [SMul K V] in
theorem mild_rMinimumCorner (r : RSpline K V) : Mild (rMinimumCorner r) := by
  unfold rMinimumCorner
  split
  · exact .terminate _
  · exact .lift _

omit [One K] [Add K] [Sub K] [Neg K] [Mul K] [Div K] [NatCast K] [Zero V] [Add V] [SMul K V] in
theorem mild_rMaximumCorner (r : RSpline K V) : Mild (rMaximumCorner r) := by
  unfold rMaximumCorner
  split
  · exact .terminate _
  · exact .lift _
end

omit [Neg K] [Div K] [NatCast K] in
theorem noThrow_rEvaluate [BEq K] [ScalarDiv K V] (r : RSpline K V) (t : List K) : NoThrow (r.evaluate t) :=
  .bind (by unfold Spline.evaluate; nothrow) fun _ => .bind (by unfold Spline.evaluate; nothrow) fun _ => .divM _ _

omit [Zero K] [One K] [Add K] [Sub K] [Neg K] [Mul K] [Div K] [NatCast K] [Zero V] [Add V] in
theorem noThrow_rSmulOp (r : RSpline K V) (c : K) : NoThrow (r.smulOp c) :=
  .bind (NoThrow.smulOp _ _) fun _ => .ofSplines _ _

omit [Zero K] [One K] [Add K] [Sub K] [Neg K] [Mul K] [Div K] [NatCast K] [Zero V] [Add V] [SMul K V] in
theorem noThrow_rNegOp [Neg V] (r : RSpline K V) : NoThrow r.negOp :=
  .bind (NoThrow.negOp _) fun _ => .ofSplines _ _

omit [Zero K] [One K] [Add K] [Sub K] [Neg K] [Mul K] [Div K] [NatCast K] [Zero V] in
theorem noThrow_rAddPoint (r : RSpline K V) (p : V) : NoThrow (r.addPointAssign p) := by
  unfold RSpline.addPointAssign; nothrow

/-- these calls send no error messages, unless they throw -/
theorem rop_polite [LT K] [DecidableLT K] [BEq K] [Sub V] [Neg V] [ScalarDiv K V] [Coords K V] (cfg : Cfg) (tx : K → String) (o : ROp K V) :
    Polite (o.call cfg tx) := by
  intro xs h
  cases o with
  | copy k j => exact heard_polite _ _ ann_rd (.lift _) h
  | evaluate j t => exact heard_polite _ _ (.bind ann_rd fun _ => .lift (noThrow_rEvaluate _ _)) (.bind (.lift _) fun _ => .lift _) h
  | elevate j d => exact heard_polite _ _ (.bind ann_rd fun _ => ann_rOrderElevate _ _) (.bind (.lift _) fun _ => mild_rOrderElevate _ _) h
  | split k l j z d => exact heard_polite _ _ (.bind ann_rd fun _ => ann_rSplitAt _ _ _ _) (.bind (.lift _) fun _ => mild_rSplitAt _ _ _ _) h
  | derive k j o =>
    exact heard_polite _ _ (.bind ann_rd fun _ => ann_rDerivativeSpline _ _ _) (.bind (.lift _) fun _ => mild_rDerivativeSpline _ _ _) h
  | scale k j c => exact heard_polite _ _ (.bind ann_rd fun _ => .lift (noThrow_rSmulOp _ _)) (.bind (.lift _) fun _ => .lift _) h
  | addPoint j p => exact heard_polite _ _ (.bind ann_rd fun _ => .lift (noThrow_rAddPoint _ _)) (.bind (.lift _) fun _ => .lift _) h
  | neg k j => exact heard_polite _ _ (.bind ann_rd fun _ => .lift (noThrow_rNegOp _)) (.bind (.lift _) fun _ => .lift _) h
  | add k i j =>
    exact heard_polite _ _ (.bind ann_rd fun _ => .bind ann_rd fun _ => ann_rAddOp _ _ _) (.bind (.lift _) fun _ => .bind (.lift _) fun _ => mild_rAddOp _ _ _) h
  | addAssign i j =>
    exact heard_polite _ _ (.bind ann_rd fun _ => .bind ann_rd fun _ => ann_rAddAssign _ _ _) (.bind (.lift _) fun _ => .bind (.lift _) fun _ => mild_rAddAssign _ _ _) h
  | sub k i j =>
    exact heard_polite _ _ (.bind ann_rd fun _ => .bind ann_rd fun _ => ann_rSubOp _ _ _) (.bind (.lift _) fun _ => .bind (.lift _) fun _ => mild_rSubOp _ _ _) h
  | subAssign i j =>
    exact heard_polite _ _ (.bind ann_rd fun _ => .bind ann_rd fun _ => ann_rSubAssign _ _ _) (.bind (.lift _) fun _ => .bind (.lift _) fun _ => mild_rSubAssign _ _ _) h
  | minimumCorner j => exact heard_polite _ _ (.bind ann_rd fun _ => ann_rMinimumCorner _) (.bind (.lift _) fun _ => mild_rMinimumCorner _) h
  | maximumCorner j => exact heard_polite _ _ (.bind ann_rd fun _ => ann_rMaximumCorner _) (.bind (.lift _) fun _ => mild_rMaximumCorner _) h
  | compose k i j b =>
    exact heard_polite _ _ (.bind ann_rd fun _ => .bind ann_rd fun _ => ann_rComposeRational _ _ _ _)
      (.bind (.lift _) fun _ => .bind (.lift _) fun _ => mild_rComposeRational _ _ _ _) h

end
end Bezman.Threads
