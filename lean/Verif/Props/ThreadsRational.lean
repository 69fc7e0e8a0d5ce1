import Verif.Proofs.ThreadsRational
import Verif.Props.Threads

/-! # Property C103: threads that use rational splines -/

namespace Bezman.Props
open Spec Threads Messages

section
variable {α ρ : Type}

/-- every statement is a polite call, and no exception is caught -/
def OnlyPolite (p : List (Stmt α ρ)) : Prop := ∀ s ∈ p, ∃ c : Call α ρ, s = .call c false ∧ Polite c

theorem onlyPolite_said : ∀ {p : List (Stmt α ρ)} {vars : ℕ → α} {outs : List ρ}, OnlyPolite p →
    (alone vars outs p).error ≠ some .throws → ∀ x ∈ (alone vars outs p).said, x.1 = .logging ∨ x.1 = .extended
  | [], _, _, _, _ => by simp [alone]
  | .setLevel n :: p, _, _, h, _ => by
    obtain ⟨c, hc, -⟩ := h _ List.mem_cons_self
    cases hc
  | .call c caught :: p, vars, outs, h, he => by
    obtain ⟨c', hc, hp⟩ := h _ List.mem_cons_self
    cases hc
    have ih := fun vars outs => onlyPolite_said (vars := vars) (outs := outs) fun s hs => h s (List.mem_cons_of_mem _ hs)
    have hs := hp (c.args.map vars)
    unfold alone at he ⊢
    rcases hr : c.run (c.args.map vars) with ⟨said, out⟩
    rw [hr] at he hs
    cases out with
    | ok r =>
      intro x hx
      rcases List.mem_append.mp hx with hx | hx
      · exact hs (by simp) x hx
      · exact ih _ _ he x hx
    | error e =>
      cases e
      case throws => exact absurd rfl he
      all_goals exact hs (by simp)

/-- C103. At the default level, with or without logging, separate threads that make polite calls never race, unless a call throws. -/
theorem C103_polite_partial (enabled : Bool) (m : Mem α) (h39 : m.level = 39) (progs : List (List (Stmt α ρ))) (hs : Separate progs)
    (ho : ∀ p ∈ progs, OnlyPolite p) (he : ∀ p ∈ progs, (alone m.vars [] p).error ≠ some .throws) (sch : List ℕ) :
    ¬ DataRace ((start enabled m progs).run sch) := by
  refine C103_default_level_partial enabled m progs hs (fun p hp n hn => ?_) h39 (fun p hp x hx => ?_) sch
  · obtain ⟨c, h, -⟩ := ho p hp _ hn
    cases h
  · have := onlyPolite_said (ho p hp) (he p hp) x hx
    rcases this with h | h <;> rw [h] <;> simp

end

section
variable {K V : Type} [Zero K] [One K] [Add K] [Sub K] [Neg K] [Mul K] [Div K] [NatCast K] [LT K] [DecidableLT K] [BEq K] [Zero V] [Add V]
  [Sub V] [Neg V] [SMul K V] [ScalarDiv K V] [Coords K V]

/-- C103. At the default level, with or without logging, separate threads that evaluate, elevate, split, differentiate, scale, move, negate,
add, subtract, compose and measure rational splines never race, unless a call throws. -/
theorem C103_rational_ops_partial (cfg : Cfg) (tx : K → String) (enabled : Bool) (m : Mem (RSpline K V)) (h39 : m.level = 39)
    (progs : List (List (Stmt (RSpline K V) V))) (hs : Separate progs)
    (ho : ∀ p ∈ progs, ∀ s ∈ p, ∃ o : ROp K V, s = .call (o.call cfg tx) false)
    (he : ∀ p ∈ progs, (alone m.vars [] p).error ≠ some .throws) (sch : List ℕ) : ¬ DataRace ((start enabled m progs).run sch) :=
  C103_polite_partial enabled m h39 progs hs (fun p hp s hs => by
    obtain ⟨o, h⟩ := ho p hp s hs
    exact ⟨_, h, rop_polite cfg tx o⟩) he sch

/-- C103. What the calls do in a thread that is alone: they compute what the other properties are about, write it to the variable that is
assigned, leave the other variables alone, and tell the logger what C105 says. -/
theorem C103_rational_calls (cfg : Cfg) (tx : K → String) (vars : ℕ → RSpline K V) (b scalar : Bool) (i j k l d p : ℕ) (t : List K) (z c : K)
    (pt : V) (orders ds es : List ℕ) (hi : HasRShape ds (vars i)) (hj : HasRShape es (vars j)) (x : V) (r r' : RSpline K V) :
    alone vars ([] : List V) [.call (ROp.call cfg tx (.copy k j)) b] = ⟨Function.update vars k (vars j), [], none, []⟩ ∧
    ((vars j).evaluate t = .ok x → alone vars [] [.call (ROp.call cfg tx (.evaluate j t)) b] = ⟨vars, [x], none, []⟩) ∧
    ((vars j).orderElevate d = .ok r → es[d]? = some p →
      alone vars [] [.call (ROp.call cfg tx (.elevate j d)) b] =
        ⟨Function.update vars j r, [], none, toldBy [elevated d (p + 1), elevated d (p + 1)]⟩) ∧
    ((vars j).splitAt z d = .ok (r, r') → d < es.length →
      alone vars [] [.call (ROp.call cfg tx (.split k l j z d)) b] =
        ⟨Function.update (Function.update vars k r) l r', [], none, toldBy (splits 2 tx d [z])⟩) ∧
    ((vars j).derivativeSpline cfg orders = .ok r → orders.length = es.length →
      alone vars [] [.call (ROp.call cfg tx (.derive k j orders)) b] = ⟨Function.update vars k r, [], none,
        toldBy ((rounds orders).zipIdx.flatMap (fun x => quotientRule es.length x.1 (2 ^ x.2 * es.getD x.1 0)))⟩) ∧
    ((vars j).smulOp c = .ok r → alone vars [] [.call (ROp.call cfg tx (.scale k j c)) b] = ⟨Function.update vars k r, [], none, []⟩) ∧
    ((vars j).addPointAssign pt = .ok r →
      alone vars [] [.call (ROp.call cfg tx (.addPoint j pt)) b] = ⟨Function.update vars j r, [], none, []⟩) ∧
    ((vars j).negOp = .ok r → alone vars [] [.call (ROp.call cfg tx (.neg k j)) b] = ⟨Function.update vars k r, [], none, []⟩) ∧
    ((vars i).addOp cfg (vars j) = .ok r → ds.length = es.length →
      alone vars [] [.call (ROp.call cfg tx (.add k i j)) b] = ⟨Function.update vars k r, [], none, []⟩) ∧
    ((vars i).addAssign cfg (vars j) = .ok r → ds.length = es.length →
      alone vars [] [.call (ROp.call cfg tx (.addAssign i j)) b] = ⟨Function.update vars i r, [], none, []⟩) ∧
    ((vars i).subOp cfg (vars j) = .ok r → ds.length = es.length →
      alone vars [] [.call (ROp.call cfg tx (.sub k i j)) b] = ⟨Function.update vars k r, [], none, []⟩) ∧
    ((vars i).subAssign cfg (vars j) = .ok r → ds.length = es.length →
      alone vars [] [.call (ROp.call cfg tx (.subAssign i j)) b] = ⟨Function.update vars i r, [], none, []⟩) ∧
    ((vars j).minimumCorner = .ok x → alone vars [] [.call (ROp.call cfg tx (.minimumCorner j)) b] = ⟨vars, [x], none, []⟩) ∧
    ((vars j).maximumCorner = .ok x → alone vars [] [.call (ROp.call cfg tx (.maximumCorner j)) b] = ⟨vars, [x], none, []⟩) ∧
    ((vars i).composeRational cfg (vars j) = .ok r →
      alone vars [] [.call (ROp.call cfg tx (.compose k i j scalar)) b] = ⟨Function.update vars k r, [], none, []⟩) := by
  have key : ∀ {β : Type} (c : Call (RSpline K V) V) (y : Said β) (f : β → List (RSpline K V) × List V) (v : β) (l : List Msg),
      c.run (c.args.map vars) = heard y f → y.out = .ok v → y.log = l →
      alone vars [] [.call c b] = ⟨assign vars c.targets (f v).1, (f v).2, none, toldBy l⟩ := by
    intro β c y f v l h1 h2 h3
    simp [alone, h1, heard, h2, h3, Except.map, Solo.after, toldBy]
  have one : ∀ (k : ℕ) (r : RSpline K V), assign vars [k] [r] = Function.update vars k r := by
    intro k r
    funext j
    simp [assign, Function.update_apply]
  have hne : (vars j).num.ncp ≠ 0 := by
    rw [hj.1.1.ncp_eq]
    exact (size_pos _).ne'
  refine ⟨?_, fun h => ?_, fun h hp => ?_, fun h hd => ?_, fun h ho => ?_, fun h => ?_, fun h => ?_, fun h => ?_, fun h hd => ?_, fun h hd => ?_,
    fun h hd => ?_, fun h hd => ?_, fun h => ?_, fun h => ?_, fun h => ?_⟩
  · rw [key _ _ _ (vars j) [] rfl rfl rfl, ← one]; rfl
  · rw [key _ _ _ x [] rfl h (by rfl)]; rfl
  · obtain ⟨p', hp', hl⟩ := C105_elevate_rational _ _ es hj _ h
    rw [hp] at hp'
    cases hp'
    rw [key _ _ _ r _ rfl ((out_rOrderElevate _ _).trans h) hl, ← one]; rfl
  · rw [key _ _ _ (r, r') _ rfl ((out_rSplitAt tx _ _ _).trans h) ((C105_split_rational tx _ es hj d hd).1 z)]
    congr 1
    funext v
    simp [ROp.call, assign, Function.update_apply]
  · rw [key _ _ _ r _ rfl ((out_rDerivativeSpline _ _ _).trans h) (C105_derivative_rational cfg _ _ es orders hj ho h).1, ← one]; rfl
  · rw [key _ _ _ r [] rfl h (by rfl), ← one]; rfl
  · rw [key _ _ _ r [] rfl h (by rfl), ← one]; rfl
  · rw [key _ _ _ r [] rfl h (by rfl), ← one]; rfl
  · rw [key _ _ _ r [] rfl ((out_rAddOp _ _ _).trans h) ((C105_sums_rational cfg _ _ ds es hi hj hd).1 _ h), ← one]; rfl
  · rw [key _ _ _ r [] rfl ((out_rAddAssign _ _ _).trans h) ((C105_sums_rational cfg _ _ ds es hi hj hd).2.1 _ h), ← one]; rfl
  · rw [key _ _ _ r [] rfl ((out_rSubOp _ _ _).trans h) ((C105_sums_rational cfg _ _ ds es hi hj hd).2.2.1 _ h), ← one]; rfl
  · rw [key _ _ _ r [] rfl ((out_rSubAssign _ _ _).trans h) ((C105_sums_rational cfg _ _ ds es hi hj hd).2.2.2 _ h), ← one]; rfl
  · have hl : (Messages.rMinimumCorner (vars j)).log = [] := by
      unfold Messages.rMinimumCorner
      rw [if_neg hne]; rfl
    rw [key _ _ _ x [] rfl ((out_rMinimumCorner _).trans h) hl]; rfl
  · have hl : (Messages.rMaximumCorner (vars j)).log = [] := by
      unfold Messages.rMaximumCorner
      rw [if_neg hne]; rfl
    rw [key _ _ _ x [] rfl ((out_rMaximumCorner _).trans h) hl]; rfl
  · rw [key (ROp.call cfg tx (.compose k i j scalar)) (Messages.rComposeRational cfg scalar (vars i) (vars j)) _ r [] rfl
      ((out_rComposeRational cfg scalar _ _).trans h) ((C105_compose_rational cfg scalar (vars i).num (vars i) (vars j) es hj).2.2.1 _ h), ← one]; rfl

end

/-! ### an example -/

/-- the calls of the example -/
def rop (o : ROp ℚ ℚ) : Stmt (RSpline ℚ ℚ) ℚ := .call (o.call ⟨10, 10⟩ fun z => toString z) false

/-- two rational splines, at the default level -/
def exRMem : Mem (RSpline ℚ ℚ) :=
  ⟨fun i => if i = 0 then ⟨Ex.line (1 / 2) 1, Ex.line 1 3⟩ else ⟨Ex.curve 0 1 4, Ex.curve 1 2 1⟩, 39, fun _ => ⟨false, []⟩⟩

/-- both threads read the splines 0 and 1 and write to splines of their own -/
def exROps : List (List (Stmt (RSpline ℚ ℚ) ℚ)) :=
  [[rop (.add 2 0 1), rop (.elevate 2 0), rop (.evaluate 2 [1 / 2])], [rop (.compose 3 1 0 true), rop (.derive 4 3 [1]), rop (.maximumCorner 4)]]

theorem exROps_separate : Separate exROps := by
  intro i j p q hij hp hq v hv hu
  have hi := (List.getElem?_eq_some_iff.mp hp).1
  have hj := (List.getElem?_eq_some_iff.mp hq).1
  simp only [exROps, List.length_cons, List.length_nil] at hi hj
  obtain ⟨rfl, rfl⟩ | ⟨rfl, rfl⟩ : i = 0 ∧ j = 1 ∨ i = 1 ∧ j = 0 := by omega
  all_goals
    simp only [exROps, List.getElem?_cons_zero, List.getElem?_cons_succ, Option.some.injEq] at hp hq
    subst hp hq
    simp only [changes, uses, List.mem_cons, List.not_mem_nil, or_false, Set.mem_setOf_eq] at hv hu
    obtain ⟨c, b, h1, h2⟩ := hv
    obtain ⟨c', b', h1', h2'⟩ := hu
    simp only [rop, Stmt.call.injEq] at h1 h1'
    rcases h1 with ⟨rfl, -⟩ | ⟨rfl, -⟩ | ⟨rfl, -⟩ <;> rcases h1' with ⟨rfl, -⟩ | ⟨rfl, -⟩ | ⟨rfl, -⟩ <;>
      simp [ROp.call] at h2 h2' <;> omega

theorem exROps_ok : ∀ p ∈ exROps, (alone exRMem.vars [] p).error = none := by decide +kernel

example (enabled : Bool) (sch : List ℕ) : ¬ DataRace ((start enabled exRMem exROps).run sch) :=
  C103_rational_ops_partial ⟨10, 10⟩ (fun z : ℚ => toString z) enabled exRMem rfl exROps exROps_separate
    (by
      intro p hp s hs
      simp only [exROps, List.mem_cons, List.not_mem_nil, or_false] at hp
      rcases hp with rfl | rfl
      all_goals
        simp only [List.mem_cons, List.not_mem_nil, or_false] at hs
        rcases hs with rfl | rfl | rfl <;> exact ⟨_, rfl⟩)
    (fun p hp => by rw [exROps_ok p hp]; simp) sch

/-- both threads compute something -/
example : (exROps.map fun p => (alone exRMem.vars [] p).outs.length) = [1, 1] := by decide +kernel

end Bezman.Props
