import Verif.Proofs.ParamArith

set_option linter.unusedSectionVars false

/-! # Whole programs run in lockstep -/

namespace Bezman

section
variable {K K' : Type} {n : Nat} [Par K K'] [One K] [Sub K] [Div K] [One K'] [Sub K'] [Div K']

mutual
/-- The same program over two number systems: corresponding constants. -/
def SExpr.Rel : SExpr K n → SExpr K' n → Prop
  | .leaf i, .leaf i' => i = i'
  | .add a b, .add a' b' => a.Rel a' ∧ b.Rel b'
  | .addAssign a b, .addAssign a' b' => a.Rel a' ∧ b.Rel b'
  | .sub a b, .sub a' b' => a.Rel a' ∧ b.Rel b'
  | .subAssign a b, .subAssign a' b' => a.Rel a' ∧ b.Rel b'
  | .neg a, .neg a' => a.Rel a'
  | .scale a c, .scale a' c' => a.Rel a' ∧ c ≋ c'
  | .addPoint a v, .addPoint a' v' => a.Rel a' ∧ v ≋ v'
  | .subPoint a v, .subPoint a' v' => a.Rel a' ∧ v ≋ v'
  | .pointSub v a, .pointSub v' a' => a.Rel a' ∧ v ≋ v'
  | .elevate a d, .elevate a' d' => a.Rel a' ∧ d = d'
  | .splitLeft a z d, .splitLeft a' z' d' => a.Rel a' ∧ z ≋ z' ∧ d = d'
  | .splitRight a z d, .splitRight a' z' d' => a.Rel a' ∧ z ≋ z' ∧ d = d'
  | .splitPart a z d i, .splitPart a' z' d' i' => a.Rel a' ∧ Spline.ParPlanes z z' ∧ d = d' ∧ i = i'
  | .deriv a o, .deriv a' o' => a.Rel a' ∧ o = o'
  | .compose a b, .compose a' b' => a.Rel a' ∧ b.Rel b'
  | .composeScalar a b, .composeScalar a' b' => a.Rel a' ∧ b.Rel b'
  | .mul a b, .mul a' b' => a.Rel a' ∧ b.Rel b'
  | .dot a b, .dot a' b' => a.Rel a' ∧ b.Rel b'
  | .power a k, .power a' k' => a.Rel a' ∧ k = k'
  | .extract a j, .extract a' j' => a.Rel a' ∧ j = j'
  | _, _ => False

@[inherit_doc SExpr.Rel]
def PExpr.Rel : PExpr K n → PExpr K' n → Prop
  | .leaf i, .leaf i' => i = i'
  | .add a b, .add a' b' => a.Rel a' ∧ b.Rel b'
  | .addAssign a b, .addAssign a' b' => a.Rel a' ∧ b.Rel b'
  | .sub a b, .sub a' b' => a.Rel a' ∧ b.Rel b'
  | .subAssign a b, .subAssign a' b' => a.Rel a' ∧ b.Rel b'
  | .neg a, .neg a' => a.Rel a'
  | .scale a c, .scale a' c' => a.Rel a' ∧ c ≋ c'
  | .addPoint a v, .addPoint a' v' => a.Rel a' ∧ v ≋ v'
  | .subPoint a v, .subPoint a' v' => a.Rel a' ∧ v ≋ v'
  | .pointSub v a, .pointSub v' a' => a.Rel a' ∧ v ≋ v'
  | .elevate a d, .elevate a' d' => a.Rel a' ∧ d = d'
  | .splitLeft a z d, .splitLeft a' z' d' => a.Rel a' ∧ z ≋ z' ∧ d = d'
  | .splitRight a z d, .splitRight a' z' d' => a.Rel a' ∧ z ≋ z' ∧ d = d'
  | .splitPart a z d i, .splitPart a' z' d' i' => a.Rel a' ∧ Spline.ParPlanes z z' ∧ d = d' ∧ i = i'
  | .deriv a o, .deriv a' o' => a.Rel a' ∧ o = o'
  | .compose a b, .compose a' b' => a.Rel a' ∧ b.Rel b'
  | .composeScalar a b, .composeScalar a' b' => a.Rel a' ∧ b.Rel b'
  | .mulLeft a b, .mulLeft a' b' => a.Rel a' ∧ b.Rel b'
  | .mulRight a b, .mulRight a' b' => a.Rel a' ∧ b.Rel b'
  | _, _ => False
end
end

/-- Corresponding variables. -/
def Vars.Rel {K K' : Type} {n : Nat} [Par K K'] (σ : Vars K n) (σ' : Vars K' n) : Prop := (∀ i, σ.s i ≋ σ'.s i) ∧ ∀ i, σ.p i ≋ σ'.p i

section
variable {tol : Err → Bool} {K K' : Type} {n : Nat} [Par K K']
  [Zero K] [One K] [Add K] [Sub K] [Mul K] [Neg K] [Div K] [NatCast K]
  [Zero K'] [One K'] [Add K'] [Sub K'] [Mul K'] [Neg K'] [Div K'] [NatCast K']
  [hk : ParScalar K K'] [LT K] [DecidableLT K] [LT K'] [DecidableLT K'] [ho : ParOrd tol K K']

theorem parDot {a b : Point K n} {a' b' : Point K' n} (ha : a ≋ a') (hb : b ≋ b') : a.dot b ≋ a'.dot b' := by
  unfold Point.dot Point.accumulate
  have : ∀ (l : List (Fin n)) (r : K) (r' : K'), r ≋ r' →
      l.foldl (fun r i => r + a.val i * b.val i) r ≋ l.foldl (fun r i => r + a'.val i * b'.val i) r' := by
    intro l
    induction l with
    | nil => exact fun _ _ h => h
    | cons i l ih => exact fun r r' h => ih _ _ (hk.add h (hk.mul (ha i) (hb i)))
  exact this _ _ _ hk.zero

mutual
/-- Corresponding programs on corresponding variables have corresponding outcomes. -/
theorem parSRun (cfg : Cfg) {σ : Vars K n} {σ' : Vars K' n} (hσ : σ.Rel σ') :
    ∀ (e : SExpr K n) (e' : SExpr K' n), e.Rel e' → RelM tol (e.run cfg σ) (e'.run cfg σ')
  | .leaf i, e', h => by
    cases e' <;> simp only [SExpr.Rel] at h
    obtain rfl := h
    simp only [SExpr.run]
    exact RelM.ok (hσ.1 i)
  | .add a b, e', h => by
    cases e' <;> simp only [SExpr.Rel] at h
    obtain ⟨h1, h2⟩ := h
    simp only [SExpr.run]
    exact RelM.bind (parSRun cfg hσ _ _ h1) fun x x' hx => RelM.bind (parSRun cfg hσ _ _ h2) fun y y' hy => Spline.parAddOp cfg hx hy
  | .addAssign a b, e', h => by
    cases e' <;> simp only [SExpr.Rel] at h
    obtain ⟨h1, h2⟩ := h
    simp only [SExpr.run]
    exact RelM.bind (parSRun cfg hσ _ _ h1) fun x x' hx => RelM.bind (parSRun cfg hσ _ _ h2) fun y y' hy => Spline.parAddAssign cfg hx hy
  | .sub a b, e', h => by
    cases e' <;> simp only [SExpr.Rel] at h
    obtain ⟨h1, h2⟩ := h
    simp only [SExpr.run]
    exact RelM.bind (parSRun cfg hσ _ _ h1) fun x x' hx => RelM.bind (parSRun cfg hσ _ _ h2) fun y y' hy => Spline.parSubOp cfg hx hy
  | .subAssign a b, e', h => by
    cases e' <;> simp only [SExpr.Rel] at h
    obtain ⟨h1, h2⟩ := h
    simp only [SExpr.run]
    exact RelM.bind (parSRun cfg hσ _ _ h1) fun x x' hx => RelM.bind (parSRun cfg hσ _ _ h2) fun y y' hy => Spline.parSubAssign cfg hx hy
  | .neg a, e', h => by
    cases e' <;> simp only [SExpr.Rel] at h
    simp only [SExpr.run]
    exact RelM.bind (parSRun cfg hσ _ _ h) fun x x' hx => Spline.parNegOp (K := K) (K' := K') hx
  | .scale a c, e', h => by
    cases e' <;> simp only [SExpr.Rel] at h
    obtain ⟨h1, h2⟩ := h
    simp only [SExpr.run]
    exact RelM.bind (parSRun cfg hσ _ _ h1) fun x x' hx => Spline.parSmulOp hx h2
  | .addPoint a v, e', h => by
    cases e' <;> simp only [SExpr.Rel] at h
    obtain ⟨h1, h2⟩ := h
    simp only [SExpr.run]
    exact RelM.bind (parSRun cfg hσ _ _ h1) fun x x' hx => Spline.parAddPoint (K := K) (K' := K') hx h2
  | .subPoint a v, e', h => by
    cases e' <;> simp only [SExpr.Rel] at h
    obtain ⟨h1, h2⟩ := h
    simp only [SExpr.run]
    exact RelM.bind (parSRun cfg hσ _ _ h1) fun x x' hx => Spline.parSubPoint (K := K) (K' := K') hx h2
  | .pointSub v a, e', h => by
    cases e' <;> simp only [SExpr.Rel] at h
    obtain ⟨h1, h2⟩ := h
    simp only [SExpr.run]
    exact RelM.bind (parSRun cfg hσ _ _ h1) fun x x' hx => Spline.parPointSub (K := K) (K' := K') hx h2
  | .elevate a d, e', h => by
    cases e' <;> simp only [SExpr.Rel] at h
    obtain ⟨h1, rfl⟩ := h
    simp only [SExpr.run]
    exact RelM.bind (parSRun cfg hσ _ _ h1) fun x x' hx => Spline.parOrderElevate hx d
  | .splitLeft a z d, e', h => by
    cases e' <;> simp only [SExpr.Rel] at h
    obtain ⟨h1, h2, rfl⟩ := h
    simp only [SExpr.run]
    exact RelM.bind (parSRun cfg hσ _ _ h1) fun x x' hx => RelM.bind (Spline.parSplitAt hx h2 d) fun l l' hl => RelM.ok hl.1
  | .splitRight a z d, e', h => by
    cases e' <;> simp only [SExpr.Rel] at h
    obtain ⟨h1, h2, rfl⟩ := h
    simp only [SExpr.run]
    exact RelM.bind (parSRun cfg hσ _ _ h1) fun x x' hx => RelM.bind (Spline.parSplitAt hx h2 d) fun l l' hl => RelM.ok hl.2
  | .splitPart a z d i, e', h => by
    cases e' <;> simp only [SExpr.Rel] at h
    obtain ⟨h1, h2, rfl, rfl⟩ := h
    simp only [SExpr.run]
    exact RelM.bind (parSRun cfg hσ _ _ h1) fun x x' hx => RelM.bind (Spline.parSplitAtMany hx h2 d) fun l l' hl => RelM.rd hl i
  | .deriv a o, e', h => by
    cases e' <;> simp only [SExpr.Rel] at h
    obtain ⟨h1, rfl⟩ := h
    simp only [SExpr.run]
    exact RelM.bind (parSRun cfg hσ _ _ h1) fun x x' hx => Spline.parDerivativeSpline cfg hx o
  | .compose a b, e', h => by
    cases e' <;> simp only [SExpr.Rel] at h
    obtain ⟨h1, h2⟩ := h
    simp only [SExpr.run]
    exact RelM.bind (parSRun cfg hσ _ _ h1) fun x x' hx => RelM.bind (parPRun cfg hσ _ _ h2) fun y y' hy => Spline.parCompose cfg hx hy
  | .composeScalar a b, e', h => by
    cases e' <;> simp only [SExpr.Rel] at h
    obtain ⟨h1, h2⟩ := h
    simp only [SExpr.run]
    exact RelM.bind (parSRun cfg hσ _ _ h1) fun x x' hx => RelM.bind (parSRun cfg hσ _ _ h2) fun y y' hy => Spline.parCompose cfg hx hy
  | .mul a b, e', h => by
    cases e' <;> simp only [SExpr.Rel] at h
    obtain ⟨h1, h2⟩ := h
    simp only [SExpr.run]
    exact RelM.bind (parSRun cfg hσ _ _ h1) fun x x' hx => RelM.bind (parSRun cfg hσ _ _ h2) fun y y' hy => Spline.parMulScalar cfg hx hy
  | .dot a b, e', h => by
    cases e' <;> simp only [SExpr.Rel] at h
    obtain ⟨h1, h2⟩ := h
    simp only [SExpr.run]
    exact RelM.bind (parPRun cfg hσ _ _ h1) fun x x' hx => RelM.bind (parPRun cfg hσ _ _ h2) fun y y' hy =>
      Spline.parMulOp cfg (fun _ _ _ _ ha hb => parDot ha hb) hx hy
  | .power a k, e', h => by
    cases e' <;> simp only [SExpr.Rel] at h
    obtain ⟨h1, rfl⟩ := h
    simp only [SExpr.run]
    exact RelM.bind (parSRun cfg hσ _ _ h1) fun x x' hx => Spline.parRaisePower cfg hx k
  | .extract a j, e', h => by
    cases e' <;> simp only [SExpr.Rel] at h
    obtain ⟨h1, rfl⟩ := h
    simp only [SExpr.run]
    exact RelM.bind (parPRun cfg hσ _ _ h1) fun x x' hx => Spline.parExtractDimension hx j

@[inherit_doc parSRun]
theorem parPRun (cfg : Cfg) {σ : Vars K n} {σ' : Vars K' n} (hσ : σ.Rel σ') :
    ∀ (e : PExpr K n) (e' : PExpr K' n), e.Rel e' → RelM tol (e.run cfg σ) (e'.run cfg σ')
  | .leaf i, e', h => by
    cases e' <;> simp only [PExpr.Rel] at h
    obtain rfl := h
    simp only [PExpr.run]
    exact RelM.ok (hσ.2 i)
  | .add a b, e', h => by
    cases e' <;> simp only [PExpr.Rel] at h
    obtain ⟨h1, h2⟩ := h
    simp only [PExpr.run]
    exact RelM.bind (parPRun cfg hσ _ _ h1) fun x x' hx => RelM.bind (parPRun cfg hσ _ _ h2) fun y y' hy => Spline.parAddOp cfg hx hy
  | .addAssign a b, e', h => by
    cases e' <;> simp only [PExpr.Rel] at h
    obtain ⟨h1, h2⟩ := h
    simp only [PExpr.run]
    exact RelM.bind (parPRun cfg hσ _ _ h1) fun x x' hx => RelM.bind (parPRun cfg hσ _ _ h2) fun y y' hy => Spline.parAddAssign cfg hx hy
  | .sub a b, e', h => by
    cases e' <;> simp only [PExpr.Rel] at h
    obtain ⟨h1, h2⟩ := h
    simp only [PExpr.run]
    exact RelM.bind (parPRun cfg hσ _ _ h1) fun x x' hx => RelM.bind (parPRun cfg hσ _ _ h2) fun y y' hy => Spline.parSubOp cfg hx hy
  | .subAssign a b, e', h => by
    cases e' <;> simp only [PExpr.Rel] at h
    obtain ⟨h1, h2⟩ := h
    simp only [PExpr.run]
    exact RelM.bind (parPRun cfg hσ _ _ h1) fun x x' hx => RelM.bind (parPRun cfg hσ _ _ h2) fun y y' hy => Spline.parSubAssign cfg hx hy
  | .neg a, e', h => by
    cases e' <;> simp only [PExpr.Rel] at h
    simp only [PExpr.run]
    exact RelM.bind (parPRun cfg hσ _ _ h) fun x x' hx => Spline.parNegOp (K := K) (K' := K') hx
  | .scale a c, e', h => by
    cases e' <;> simp only [PExpr.Rel] at h
    obtain ⟨h1, h2⟩ := h
    simp only [PExpr.run]
    exact RelM.bind (parPRun cfg hσ _ _ h1) fun x x' hx => Spline.parSmulOp hx h2
  | .addPoint a v, e', h => by
    cases e' <;> simp only [PExpr.Rel] at h
    obtain ⟨h1, h2⟩ := h
    simp only [PExpr.run]
    exact RelM.bind (parPRun cfg hσ _ _ h1) fun x x' hx => Spline.parAddPoint (K := K) (K' := K') hx h2
  | .subPoint a v, e', h => by
    cases e' <;> simp only [PExpr.Rel] at h
    obtain ⟨h1, h2⟩ := h
    simp only [PExpr.run]
    exact RelM.bind (parPRun cfg hσ _ _ h1) fun x x' hx => Spline.parSubPoint (K := K) (K' := K') hx h2
  | .pointSub v a, e', h => by
    cases e' <;> simp only [PExpr.Rel] at h
    obtain ⟨h1, h2⟩ := h
    simp only [PExpr.run]
    exact RelM.bind (parPRun cfg hσ _ _ h1) fun x x' hx => Spline.parPointSub (K := K) (K' := K') hx h2
  | .elevate a d, e', h => by
    cases e' <;> simp only [PExpr.Rel] at h
    obtain ⟨h1, rfl⟩ := h
    simp only [PExpr.run]
    exact RelM.bind (parPRun cfg hσ _ _ h1) fun x x' hx => Spline.parOrderElevate hx d
  | .splitLeft a z d, e', h => by
    cases e' <;> simp only [PExpr.Rel] at h
    obtain ⟨h1, h2, rfl⟩ := h
    simp only [PExpr.run]
    exact RelM.bind (parPRun cfg hσ _ _ h1) fun x x' hx => RelM.bind (Spline.parSplitAt hx h2 d) fun l l' hl => RelM.ok hl.1
  | .splitRight a z d, e', h => by
    cases e' <;> simp only [PExpr.Rel] at h
    obtain ⟨h1, h2, rfl⟩ := h
    simp only [PExpr.run]
    exact RelM.bind (parPRun cfg hσ _ _ h1) fun x x' hx => RelM.bind (Spline.parSplitAt hx h2 d) fun l l' hl => RelM.ok hl.2
  | .splitPart a z d i, e', h => by
    cases e' <;> simp only [PExpr.Rel] at h
    obtain ⟨h1, h2, rfl, rfl⟩ := h
    simp only [PExpr.run]
    exact RelM.bind (parPRun cfg hσ _ _ h1) fun x x' hx => RelM.bind (Spline.parSplitAtMany hx h2 d) fun l l' hl => RelM.rd hl i
  | .deriv a o, e', h => by
    cases e' <;> simp only [PExpr.Rel] at h
    obtain ⟨h1, rfl⟩ := h
    simp only [PExpr.run]
    exact RelM.bind (parPRun cfg hσ _ _ h1) fun x x' hx => Spline.parDerivativeSpline cfg hx o
  | .compose a b, e', h => by
    cases e' <;> simp only [PExpr.Rel] at h
    obtain ⟨h1, h2⟩ := h
    simp only [PExpr.run]
    exact RelM.bind (parPRun cfg hσ _ _ h1) fun x x' hx => RelM.bind (parPRun cfg hσ _ _ h2) fun y y' hy => Spline.parCompose cfg hx hy
  | .composeScalar a b, e', h => by
    cases e' <;> simp only [PExpr.Rel] at h
    obtain ⟨h1, h2⟩ := h
    simp only [PExpr.run]
    exact RelM.bind (parPRun cfg hσ _ _ h1) fun x x' hx => RelM.bind (parSRun cfg hσ _ _ h2) fun y y' hy => Spline.parCompose cfg hx hy
  | .mulLeft a b, e', h => by
    cases e' <;> simp only [PExpr.Rel] at h
    obtain ⟨h1, h2⟩ := h
    simp only [PExpr.run]
    exact RelM.bind (parSRun cfg hσ _ _ h1) fun x x' hx => RelM.bind (parPRun cfg hσ _ _ h2) fun y y' hy =>
      Spline.parMulOp cfg (fun _ _ _ _ ha hb => ParPoint.smul ha hb) hx hy
  | .mulRight a b, e', h => by
    cases e' <;> simp only [PExpr.Rel] at h
    obtain ⟨h1, h2⟩ := h
    simp only [PExpr.run]
    exact RelM.bind (parPRun cfg hσ _ _ h1) fun x x' hx => RelM.bind (parSRun cfg hσ _ _ h2) fun y y' hy =>
      Spline.parMulOp cfg (fun _ _ _ _ ha hb => ParPoint.smul hb ha) hx hy
end

end
end Bezman
