import Verif.Proofs.MessagesRest
import Verif.Proofs.ThreadsLogger

/-! # The calls of the library in a thread -/

namespace Bezman.Threads
open Spec Messages
open Said (lift say terminate loopS whileS)
variable {α β σ : Type}

/-- sends no message of the kind `error` -/
def Mild (x : Said α) : Prop := ∀ m ∈ x.log, m.kind ≠ .error

theorem Mild.lift (m : M α) : Mild (Said.lift m) := by simp [Mild]
theorem Mild.pure (a : α) : Mild (pure a : Said α) := by simp [Mild]
theorem Mild.say {k : Bezman.Kind} (h : k ≠ .error) (t : String) : Mild (Said.say k t) := by simpa [Mild]
theorem Mild.terminate (t : String) : Mild (Said.terminate t : Said α) := by simp [Mild]
theorem Mild.bind {x : Said α} {f : α → Said β} (hx : Mild x) (hf : ∀ a, Mild (f a)) : Mild (x >>= f) := by
  cases h : x.out with
  | error e => unfold Mild; rw [Said.log_bind_error h]; exact hx
  | ok a =>
    unfold Mild
    rw [Said.log_bind_ok h]
    intro m hm
    rcases List.mem_append.mp hm with hm | hm
    · exact hx m hm
    · exact hf a m hm
theorem Mild.loopS {f : ℕ → σ → Said σ} (hf : ∀ i s, Mild (f i s)) : ∀ (n : ℕ) (s : σ), Mild (Said.loopS n f s)
  | 0, _ => .pure _
  | n + 1, s => .bind (Mild.loopS hf n s) fun _ => hf _ _
theorem Mild.whileS {c : σ → M Bool} {f : σ → Said σ} (hf : ∀ s, Mild (f s)) : ∀ (n : ℕ) (s : σ), Mild (Said.whileS n c f s)
  | 0, _ => by simp [Mild, Said.whileS]
  | n + 1, s => .bind (.lift _) fun b => by
    cases b
    · exact .pure _
    · exact .bind (hf s) fun s => Mild.whileS hf n s

variable {K V : Type}

section
variable [One K] [Sub K] [Mul K] [Div K] [NatCast K] [Zero V] [Add V] [SMul K V]

theorem mild_orderElevate (s : Spline V) (d : ℕ) : Mild (orderElevate K s d) :=
  .bind (.lift _) fun _ => .bind (.lift _) fun _ => .bind (.say (by decide) _) fun _ => .pure _

theorem mild_elevateTo (cfg : Cfg) (s : Spline V) (t : List ℕ) : Mild (elevateTo K cfg s t) :=
  Mild.loopS (fun _ _ => Mild.whileS (fun _ => mild_orderElevate _ _) _ _) _ _

theorem mild_addAux (cfg : Cfg) : ∀ (depth : ℕ) (s r : Spline V), Mild (addAux K cfg depth s r)
  | 0, _, _ => .lift _
  | n + 1, s, r => .bind (.lift _) fun _ => .bind (.lift _) fun b => .bind (mild_elevateTo _ _ _) fun _ => by
    cases b
    · exact .bind (.lift _) fun _ => .pure _
    · exact mild_addAux cfg n _ _

theorem mild_addAssign (cfg : Cfg) (s r : Spline V) : Mild (addAssign K cfg s r) :=
  .bind (mild_elevateTo _ _ _) fun _ => .bind (mild_elevateTo _ _ _) fun _ => .bind (.lift _) fun _ => .pure _

theorem mild_subOp [Sub V] (cfg : Cfg) (s r : Spline V) : Mild (subOp K cfg s r) :=
  .bind (.lift _) fun _ => .bind (Mild.loopS (fun _ _ => Mild.whileS (fun _ => mild_orderElevate _ _) _ _) _ _) fun _ =>
    .bind (mild_elevateTo _ _ _) fun _ => .bind (.lift _) fun _ => .pure _

theorem mild_subAssign [Sub V] (cfg : Cfg) (s r : Spline V) : Mild (subAssign K cfg s r) :=
  .bind (mild_elevateTo _ _ _) fun _ => .bind (mild_elevateTo _ _ _) fun _ => .bind (.lift _) fun _ => .pure _
end

section
variable [Coords K V]

theorem mild_extractDimension [Zero K] (b : Bool) (s : Spline V) (d : ℕ) : Mild (extractDimension K b s d) := by
  unfold extractDimension
  split
  · exact .lift _
  · exact .terminate _

theorem mild_transposeAndScale [Add K] [Mul K] (s : Spline V) (a b : V) : Mild (transposeAndScale K s a b) :=
  .bind (.say (by decide) _) fun _ => .lift _

variable [LT K] [DecidableLT K]

theorem mild_maximumCorner (s : Spline V) : Mild (maximumCorner K s) := by
  unfold maximumCorner
  split
  · exact .terminate _
  · exact .lift _

theorem mild_minimumCorner (s : Spline V) : Mild (minimumCorner K s) := by
  unfold minimumCorner
  split
  · exact .terminate _
  · exact .lift _

theorem mild_fitIntoUnitCube [One K] [Add K] [Mul K] [Div K] [Sub V] [Neg V] (s : Spline V) : Mild (fitIntoUnitCube K s) :=
  .bind (mild_maximumCorner _) fun _ => .bind (mild_minimumCorner _) fun _ => mild_transposeAndScale _ _ _

theorem mild_fitsIntoUnitCube [Zero K] [One K] (s : Spline V) : Mild (fitsIntoUnitCube K s) :=
  .bind (mild_maximumCorner _) fun _ => .bind (mild_minimumCorner _) fun _ => .pure _

theorem mild_compose {U : Type} [Zero U] [Add U] [SMul K U] [Zero K] [One K] [Add K] [Sub K] [Mul K] [Neg K] [Div K] [NatCast K] (cfg : Cfg)
    (b : Bool) (s : Spline U) (i : Spline V) : Mild (compose K cfg b s i) :=
  .bind (mild_fitsIntoUnitCube _) fun f => by
    split
    · exact .terminate _
    · exact .bind (.lift _) fun _ => .bind (Mild.loopS (fun _ _ => .bind (.lift _) fun _ => .bind (mild_extractDimension _ _ _) fun _ =>
        .bind (.lift _) fun _ => .bind (.lift _) fun _ => .lift _) _ _) fun _ => .lift _
end

theorem mild_derivativeSpline [One K] [Neg K] [Mul K] [NatCast K] [Zero V] [Add V] [SMul K V] (cfg : Cfg) (s : Spline V) (o : List ℕ) :
    Mild (derivativeSpline K cfg s o) :=
  .bind (.lift _) fun _ => .bind (.say (by decide) _) fun _ => .bind (.lift _) fun _ => .bind (.say (by decide) _) fun _ => .pure _

theorem mild_splitAt [Zero K] [One K] [Sub K] [LT K] [DecidableLT K] [Zero V] [Add V] [SMul K V] (tx : K → String) (s : Spline V) (z : K)
    (d : ℕ) : Mild (Messages.splitAt tx s z d) :=
  .bind (.say (by decide) _) fun _ => by
    split
    · exact .terminate _
    · exact .lift _

theorem ann_rd {l : List α} {i : ℕ} : Announces (Said.lift (rd l i)) := by
  refine .inr ⟨?_, by simp⟩
  show rd l i ≠ _
  unfold rd
  split <;> simp

section
variable [Zero K] [One K] [Sub K] [Neg K] [Mul K] [Div K] [NatCast K] [LT K] [DecidableLT K] [Zero V] [Add V] [SMul K V]
  [Add K] [Sub V] [Neg V] [Coords K V]

theorem noThrow_evaluate (s : Spline V) (t : List K) : NoThrow (s.evaluate t) := by
  unfold Spline.evaluate; nothrow

theorem noThrow_bernstein (cfg : Cfg) (p : ℕ) (x : K) : NoThrow (bernsteinEvaluate cfg p x) := by
  unfold bernsteinEvaluate; nothrow [NoThrow.choose]

theorem noThrow_bernsteinDerivative (cfg : Cfg) (p : ℕ) (x : K) (k : ℕ) : NoThrow (bernsteinEvaluateDerivative cfg p x k) := by
  unfold bernsteinEvaluateDerivative; nothrow [NoThrow.choose, noThrow_bernstein]

theorem noThrow_combineAux : ∀ (n : ℕ) (f : List (List K)) (r : List K) (c : K), NoThrow (recursiveCombine_ n f r c)
  | 0, f, r, c => by unfold recursiveCombine_; nothrow
  | n + 1, f, r, c => by
    unfold recursiveCombine_
    exact .bind (.rd _ _) fun _ => .loop fun _ _ => .bind (.rd _ _) fun _ => noThrow_combineAux n _ _ _

theorem noThrow_weightedSum (f : List K) (c : List V) : NoThrow (Spline.weightedSum f c) := by
  unfold Spline.weightedSum; nothrow

theorem noThrow_forwardEvaluate (cfg : Cfg) (s : Spline V) (t : List K) : NoThrow (s.forwardEvaluate cfg t) := by
  unfold Spline.forwardEvaluate Spline.basisFunctions Spline.basisFunctionContributions recursiveCombine
  nothrow [noThrow_bernstein, noThrow_combineAux, noThrow_weightedSum]

theorem noThrow_evaluateDerivative (cfg : Cfg) (s : Spline V) (t : List K) (o : List ℕ) : NoThrow (s.evaluateDerivative cfg t o) := by
  unfold Spline.evaluateDerivative Spline.basisFunctionsDerivatives Spline.basisFunctionsDerivativeContributions recursiveCombine
  nothrow [noThrow_bernsteinDerivative, noThrow_combineAux, noThrow_weightedSum]

/-- the messages of a call, if it does not throw -/
theorem op_said (cfg : Cfg) (tx : K → String) (o : Op K) (xs : List (Spline V)) (h : ((o.call cfg tx).run xs : List (LogKind × String) × M (List (Spline V) × List V)).2 ≠ .error .throws) :
    ∀ x ∈ ((o.call cfg tx).run xs : List (LogKind × String) × M (List (Spline V) × List V)).1, x.1 = .logging ∨ x.1 = .extended := by
  have key : ∀ {β : Type} (x : Said β) (f : β → List (Spline V) × List V), Announces x → Mild x → (heard x f).2 ≠ .error .throws →
      ∀ y ∈ (heard x f).1, y.1 = .logging ∨ y.1 = .extended := by
    intro β x f ha hm ht y hy
    obtain ⟨m, h1, rfl⟩ := List.mem_map.mp hy
    have h2 : ∀ m ∈ x.log, m.kind ≠ .terminating := by
      rcases ha with ⟨e, _⟩ | ⟨_, e⟩
      · exact absurd (by simp [heard, e, Except.map]) ht
      · exact e
    have h3 := h2 m h1
    have h4 := hm m h1
    cases hk : m.kind <;> simp_all [LogKind.of]
  cases o with
  | copy k j =>
    exact key _ _ ann_rd (.lift _) h
  | evaluate j t =>
    exact key _ _ (.bind ann_rd fun _ => .lift (noThrow_evaluate _ _)) (.bind (.lift _) fun _ => .lift _) h
  | elevate j d =>
    exact key _ _ (.bind ann_rd fun _ => ann_orderElevate _ _) (.bind (.lift _) fun _ => mild_orderElevate _ _) h
  | add k i j =>
    exact key _ _ (.bind ann_rd fun _ => .bind ann_rd fun _ => ann_addOp _ _ _) (.bind (.lift _) fun _ => .bind (.lift _) fun _ => mild_addAux _ _ _ _) h
  | addAssign i j =>
    exact key _ _ (.bind ann_rd fun _ => .bind ann_rd fun _ => ann_addAssign _ _ _) (.bind (.lift _) fun _ => .bind (.lift _) fun _ => mild_addAssign _ _ _) h
  | derive k j o =>
    exact key _ _ (.bind ann_rd fun _ => ann_derivativeSpline _ _ _) (.bind (.lift _) fun _ => mild_derivativeSpline _ _ _) h
  | split k l j z d =>
    exact key _ _ (.bind ann_rd fun _ => ann_splitAt _ _ _ _) (.bind (.lift _) fun _ => mild_splitAt _ _ _ _) h
  | sub k i j =>
    exact key _ _ (.bind ann_rd fun _ => .bind ann_rd fun _ => ann_subOp _ _ _) (.bind (.lift _) fun _ => .bind (.lift _) fun _ => mild_subOp _ _ _) h
  | subAssign i j =>
    exact key _ _ (.bind ann_rd fun _ => .bind ann_rd fun _ => ann_subAssign _ _ _) (.bind (.lift _) fun _ => .bind (.lift _) fun _ => mild_subAssign _ _ _) h
  | neg k j =>
    exact key _ _ (.bind ann_rd fun _ => .lift (NoThrow.negOp _)) (.bind (.lift _) fun _ => .lift _) h
  | scale k j c =>
    exact key _ _ (.bind ann_rd fun _ => .lift (NoThrow.smulOp _ _)) (.bind (.lift _) fun _ => .lift _) h
  | forwardEvaluate j t =>
    exact key _ _ (.bind ann_rd fun _ => .lift (noThrow_forwardEvaluate _ _ _)) (.bind (.lift _) fun _ => .lift _) h
  | evaluateDerivative j t o =>
    exact key _ _ (.bind ann_rd fun _ => .lift (noThrow_evaluateDerivative _ _ _ _)) (.bind (.lift _) fun _ => .lift _) h
  | minimumCorner j =>
    exact key _ _ (.bind ann_rd fun _ => ann_minimumCorner _) (.bind (.lift _) fun _ => mild_minimumCorner _) h
  | maximumCorner j =>
    exact key _ _ (.bind ann_rd fun _ => ann_maximumCorner _) (.bind (.lift _) fun _ => mild_maximumCorner _) h
  | fit j =>
    exact key _ _ (.bind ann_rd fun _ => ann_fitIntoUnitCube _) (.bind (.lift _) fun _ => mild_fitIntoUnitCube _) h
  | compose k i j b =>
    exact key _ _ (.bind ann_rd fun _ => .bind ann_rd fun _ => ann_compose _ _ _ _) (.bind (.lift _) fun _ => .bind (.lift _) fun _ => mild_compose _ _ _ _) h

end
end Bezman.Threads
