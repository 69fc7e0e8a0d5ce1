import Verif.Proofs.ThreadsMixed
import Verif.Props.ThreadsRational

/-! # Property C103: threads that use polynomial and rational splines together -/

namespace Bezman.Props
open Spec Threads Messages

section
variable {α ρ σ τ : Type}

theorem assign_map_into {vars : ℕ → σ} {svars : ℕ → α} {into : α → σ} {S : Set ℕ} (is : List ℕ) (xs : List α)
    (h : ∀ v ∈ S, vars v = into (svars v)) : ∀ v ∈ S, assign vars is (xs.map into) v = into (assign svars is xs v) := by
  induction is generalizing xs vars svars with
  | nil => exact h
  | cons i is ih =>
    cases xs with
    | nil => exact h
    | cons x xs =>
      refine ih xs fun v hv => ?_
      by_cases e : v = i
      · simp [e]
      · simp [e, h v hv]

theorem assign_other {vars : ℕ → α} (is : List ℕ) (xs : List α) {v : ℕ} (h : v ∉ is) : assign vars is xs v = vars v := by
  induction is generalizing xs vars with
  | nil => rfl
  | cons i is ih =>
    cases xs with
    | nil => rfl
    | cons x xs =>
      rw [List.mem_cons, not_or] at h
      exact (ih xs h.2).trans (by simp [h.1])

/-- a thread whose calls all have variables of one type does in a program with variables of several types what it does in a program with
variables of this type only -/
theorem alone_among {as : σ → M α} {into : α → σ} {out : ρ → τ} (has : ∀ x, as (into x) = .ok x) {S : Set ℕ} {ι : Type} (f : ι → Call α ρ) :
    ∀ (p : List (ι × Bool)) (vars : ℕ → σ) (svars : ℕ → α) (outs : List ρ), (∀ v ∈ S, vars v = into (svars v)) →
      (∀ c ∈ p, ∀ v, v ∈ (f c.1).args ∨ v ∈ (f c.1).targets → v ∈ S) →
      (alone vars (outs.map out) (p.map fun c => .call ((f c.1).among as into out) c.2)).said = (alone svars outs (p.map fun c => .call (f c.1) c.2)).said ∧
      (alone vars (outs.map out) (p.map fun c => .call ((f c.1).among as into out) c.2)).error = (alone svars outs (p.map fun c => .call (f c.1) c.2)).error ∧
      (alone vars (outs.map out) (p.map fun c => .call ((f c.1).among as into out) c.2)).outs =
        (alone svars outs (p.map fun c => .call (f c.1) c.2)).outs.map out ∧
      (∀ v ∈ S, (alone vars (outs.map out) (p.map fun c => .call ((f c.1).among as into out) c.2)).vars v =
        into ((alone svars outs (p.map fun c => .call (f c.1) c.2)).vars v)) ∧
      ∀ v, (∀ c ∈ p, v ∉ (f c.1).targets) → (alone vars (outs.map out) (p.map fun c => .call ((f c.1).among as into out) c.2)).vars v = vars v
  | [], vars, svars, outs, hv, _ => ⟨rfl, rfl, rfl, hv, fun _ _ => rfl⟩
  | (o, b) :: p, vars, svars, outs, hv, hu => by
    have hp := fun c h => hu c (List.mem_cons_of_mem _ h)
    have ha : ((f o).args.map vars).mapM as = .ok ((f o).args.map svars) := by
      have : ∀ l : List ℕ, (∀ v ∈ l, v ∈ S) → (l.map vars).mapM as = .ok (l.map svars) := by
        intro l
        induction l with
        | nil => intro _; rfl
        | cons v l ih =>
          intro h
          rw [List.map_cons, List.mapM_cons, hv v (h v List.mem_cons_self), has, ih fun w hw => h w (List.mem_cons_of_mem _ hw)]
          rfl
      exact this _ fun v h => hu _ List.mem_cons_self v (.inl h)
    have hr : ((f o).among as into out).run (((f o).among as into out).args.map vars) =
        (((f o).run ((f o).args.map svars)).1, ((f o).run ((f o).args.map svars)).2.map fun r => (r.1.map into, r.2.map out)) := by
      simp only [Call.among, ha]
    simp only [List.map_cons]
    unfold alone
    simp only [hr]
    rcases hc : (f o).run ((f o).args.map svars) with ⟨said, e | ⟨ys, zs⟩⟩
    · cases e
      case throws =>
        cases b with
        | false => exact ⟨rfl, rfl, rfl, hv, fun _ _ => rfl⟩
        | true =>
          obtain ⟨h1, h2, h3, h4, h5⟩ := alone_among has f p vars svars outs hv hp
          exact ⟨congrArg (said ++ ·) h1, h2, h3, h4, fun v h => h5 v fun c hc => h c (List.mem_cons_of_mem _ hc)⟩
      all_goals exact ⟨rfl, rfl, rfl, hv, fun _ _ => rfl⟩
    · obtain ⟨h1, h2, h3, h4, h5⟩ := alone_among has f p (assign vars (f o).targets (ys.map into)) (assign svars (f o).targets ys) (outs ++ zs)
        (assign_map_into _ _ hv) hp
      rw [List.map_append] at h1 h2 h3 h4 h5
      exact ⟨congrArg (said ++ ·) h1, h2, h3, h4, fun v h => (h5 v fun c hc => h c (List.mem_cons_of_mem _ hc)).trans
        (assign_other _ _ (h _ List.mem_cons_self))⟩

end

section
variable {K V : Type} [Zero K] [One K] [Add K] [Sub K] [Neg K] [Mul K] [Div K] [NatCast K] [LT K] [DecidableLT K] [BEq K] [Zero V] [Add V]
  [Sub V] [Neg V] [SMul K V] [ScalarDiv K V] [Coords K V]

/-- C103. At the default level, with or without logging, separate threads that use polynomial splines of points, polynomial splines of
numbers and rational splines together never race, unless a call throws or a polynomial spline is composed with a rational one (for this
one see `C103_constant_compose_fails`). -/
theorem C103_mixed_ops_partial (cfg : Cfg) (tx : K → String) (enabled : Bool) (m : Mem (Obj K V)) (h39 : m.level = 39)
    (progs : List (List (Stmt (Obj K V) (V ⊕ K)))) (hs : Separate progs)
    (ho : ∀ p ∈ progs, ∀ s ∈ p, ∃ o : MOp K V, (∀ k i j b, o ≠ .composeRational k i j b) ∧ s = .call (o.call cfg tx) false)
    (he : ∀ p ∈ progs, (alone m.vars [] p).error ≠ some .throws) (sch : List ℕ) : ¬ DataRace ((start enabled m progs).run sch) :=
  C103_polite_partial enabled m h39 progs hs (fun p hp s hs => by
    obtain ⟨o, hn, h⟩ := ho p hp s hs
    exact ⟨_, h, mop_polite cfg tx o hn⟩) he sch

/-- C103. Threads that compose polynomial splines with rational ones too: they never race if no call throws and no thread alone sends an
error message. -/
theorem C103_mixed_silent_partial (cfg : Cfg) (tx : K → String) (enabled : Bool) (m : Mem (Obj K V)) (h39 : m.level = 39)
    (progs : List (List (Stmt (Obj K V) (V ⊕ K)))) (hs : Separate progs)
    (ho : ∀ p ∈ progs, ∀ s ∈ p, ∃ o : MOp K V, s = .call (o.call cfg tx) false)
    (hq : ∀ p ∈ progs, ∀ x ∈ (alone m.vars [] p).said, x.1 = .logging ∨ x.1 = .extended) (sch : List ℕ) :
    ¬ DataRace ((start enabled m progs).run sch) :=
  C103_default_level_partial enabled m progs hs (fun p hp n hn => by
    obtain ⟨o, h⟩ := ho p hp _ hn
    cases h) h39 (fun p hp x hx => by
    rcases hq p hp x hx with h | h <;> rw [h] <;> simp) sch

/-- C103. A thread that works on polynomial splines of points only, in a program that has variables of the other types: it computes, writes
and sends what it does in a program without them (`C103_calls`, `C103_more_calls`). -/
theorem C103_mixed_poly (cfg : Cfg) (tx : K → String) (p : List (Op K × Bool)) (vars : ℕ → Obj K V) (svars : ℕ → Spline V) (S : Set ℕ)
    (hv : ∀ v ∈ S, vars v = .poly (svars v))
    (hu : ∀ o ∈ p, ∀ v, v ∈ (o.1.call cfg tx : Call (Spline V) V).args ∨ v ∈ (o.1.call cfg tx : Call (Spline V) V).targets → v ∈ S) :
    (alone vars [] (p.map fun o => .call ((MOp.poly o.1).call cfg tx) o.2)).said = (alone svars [] (p.map fun o => .call (o.1.call cfg tx) o.2)).said ∧
    (alone vars [] (p.map fun o => .call ((MOp.poly o.1).call cfg tx) o.2)).error = (alone svars [] (p.map fun o => .call (o.1.call cfg tx) o.2)).error ∧
    (alone vars [] (p.map fun o => .call ((MOp.poly o.1).call cfg tx) o.2)).outs =
      (alone svars [] (p.map fun o => .call (o.1.call cfg tx) o.2)).outs.map Sum.inl ∧
    (∀ v ∈ S, (alone vars [] (p.map fun o => .call ((MOp.poly o.1).call cfg tx) o.2)).vars v =
      .poly ((alone svars [] (p.map fun o => .call (o.1.call cfg tx) o.2)).vars v)) ∧
    ∀ v, (∀ o ∈ p, v ∉ (o.1.call cfg tx : Call (Spline V) V).targets) →
      (alone vars [] (p.map fun o => .call ((MOp.poly o.1).call cfg tx) o.2)).vars v = vars v := by
  have h := alone_among (as := Obj.asPoly (K := K) (V := V)) (into := Obj.poly) (out := (Sum.inl : V → V ⊕ K)) (fun _ => rfl)
    (fun o : Op K => o.call cfg tx) p vars svars [] hv hu
  exact h

/-- C103. The same for a thread that works on polynomial splines of numbers only. -/
theorem C103_mixed_num (cfg : Cfg) (tx : K → String) (p : List (Op K × Bool)) (vars : ℕ → Obj K V) (svars : ℕ → Spline K) (S : Set ℕ)
    (hv : ∀ v ∈ S, vars v = .num (svars v))
    (hu : ∀ o ∈ p, ∀ v, v ∈ (o.1.call cfg tx : Call (Spline K) K).args ∨ v ∈ (o.1.call cfg tx : Call (Spline K) K).targets → v ∈ S) :
    (alone vars [] (p.map fun o => .call ((MOp.num o.1).call cfg tx) o.2)).said = (alone svars [] (p.map fun o => .call (o.1.call cfg tx) o.2)).said ∧
    (alone vars [] (p.map fun o => .call ((MOp.num o.1).call cfg tx) o.2)).error = (alone svars [] (p.map fun o => .call (o.1.call cfg tx) o.2)).error ∧
    (alone vars [] (p.map fun o => .call ((MOp.num o.1).call cfg tx) o.2)).outs =
      (alone svars [] (p.map fun o => .call (o.1.call cfg tx) o.2)).outs.map Sum.inr ∧
    (∀ v ∈ S, (alone vars [] (p.map fun o => .call ((MOp.num o.1).call cfg tx) o.2)).vars v =
      .num ((alone svars [] (p.map fun o => .call (o.1.call cfg tx) o.2)).vars v)) ∧
    ∀ v, (∀ o ∈ p, v ∉ (o.1.call cfg tx : Call (Spline K) K).targets) →
      (alone vars [] (p.map fun o => .call ((MOp.num o.1).call cfg tx) o.2)).vars v = vars v := by
  have h := alone_among (as := Obj.asNum (K := K) (V := V)) (into := Obj.num) (out := (Sum.inr : K → V ⊕ K)) (fun _ => rfl)
    (fun o : Op K => o.call cfg tx) p vars svars [] hv hu
  exact h

/-- C103. The same for a thread that works on rational splines only (`C103_rational_calls`). -/
theorem C103_mixed_rat (cfg : Cfg) (tx : K → String) (p : List (ROp K V × Bool)) (vars : ℕ → Obj K V) (svars : ℕ → RSpline K V) (S : Set ℕ)
    (hv : ∀ v ∈ S, vars v = .rat (svars v))
    (hu : ∀ o ∈ p, ∀ v, v ∈ (o.1.call cfg tx).args ∨ v ∈ (o.1.call cfg tx).targets → v ∈ S) :
    (alone vars [] (p.map fun o => .call ((MOp.rat o.1).call cfg tx) o.2)).said = (alone svars [] (p.map fun o => .call (o.1.call cfg tx) o.2)).said ∧
    (alone vars [] (p.map fun o => .call ((MOp.rat o.1).call cfg tx) o.2)).error = (alone svars [] (p.map fun o => .call (o.1.call cfg tx) o.2)).error ∧
    (alone vars [] (p.map fun o => .call ((MOp.rat o.1).call cfg tx) o.2)).outs =
      (alone svars [] (p.map fun o => .call (o.1.call cfg tx) o.2)).outs.map Sum.inl ∧
    (∀ v ∈ S, (alone vars [] (p.map fun o => .call ((MOp.rat o.1).call cfg tx) o.2)).vars v =
      .rat ((alone svars [] (p.map fun o => .call (o.1.call cfg tx) o.2)).vars v)) ∧
    ∀ v, (∀ o ∈ p, v ∉ (o.1.call cfg tx).targets) →
      (alone vars [] (p.map fun o => .call ((MOp.rat o.1).call cfg tx) o.2)).vars v = vars v := by
  have h := alone_among (as := Obj.asRat (K := K) (V := V)) (into := Obj.rat) (out := (Sum.inl : V → V ⊕ K)) (fun _ => rfl)
    (fun o : ROp K V => o.call cfg tx) p vars svars [] hv hu
  exact h

/-- C103. What the calls with variables of several types do in a thread that is alone: they compute what the other properties are about,
write it to the variable that is assigned, leave the other variables alone, and tell the logger what C105 says. -/
theorem C103_mixed_calls (cfg : Cfg) (tx : K → String) (vars : ℕ → Obj K V) (b scalar : Bool) (i j k : ℕ) (s s' : Spline V) (w w' : Spline K)
    (q r : RSpline K V) :
    (vars i = .num w → vars j = .num w' → ∀ x, Spline.mulScalar cfg w w' = .ok x →
      alone vars [] [.call (MOp.call cfg tx (.product k i j)) b] = ⟨Function.update vars k (.num x), [], none, []⟩) ∧
    (vars j = .poly s → RSpline.ofSpline s = .ok r →
      alone vars [] [.call (MOp.call cfg tx (.promote k j)) b] = ⟨Function.update vars k (.rat r), [], none, []⟩) ∧
    (vars i = .poly s → vars j = .num w → RSpline.ofSplines s w = .ok r →
      alone vars [] [.call (MOp.call cfg tx (.assemble k i j)) b] = ⟨Function.update vars k (.rat r), [], none, []⟩) ∧
    (vars j = .rat q → alone vars [] [.call (MOp.call cfg tx (.weights k j)) b] = ⟨Function.update vars k (.num q.wt), [], none, []⟩) ∧
    (vars j = .rat q → alone vars [] [.call (MOp.call cfg tx (.numerator k j)) b] = ⟨Function.update vars k (.poly q.num), [], none, []⟩) ∧
    (vars i = .poly s → vars j = .num w → RSpline.mulWeight' cfg s w = .ok s' →
      alone vars [] [.call (MOp.call cfg tx (.weigh k i j)) b] = ⟨Function.update vars k (.poly s'), [], none, []⟩) ∧
    (vars i = .poly s → vars j = .num w → s.compose K cfg w = .ok s' →
      alone vars [] [.call (MOp.call cfg tx (.composeNum k i j)) b] = ⟨Function.update vars k (.poly s'), [], none, []⟩) ∧
    (vars i = .rat q → vars j = .poly s → q.compose cfg s = .ok r →
      alone vars [] [.call (MOp.call cfg tx (.composePoly k i j scalar)) b] = ⟨Function.update vars k (.rat r), [], none, []⟩) ∧
    (vars i = .poly s → vars j = .rat q → ∀ ds, HasRShape ds q → s.composeRational cfg q = .ok r →
      alone vars [] [.call (MOp.call cfg tx (.composeRational k i j scalar)) b] = ⟨Function.update vars k (.rat r), [], none,
        if s.degrees.sum = 0 then [(.error, "Raising to 0 is inefficient. Please revisit")] else []⟩) := by
  have key : ∀ {β : Type} (c : Call (Obj K V) (V ⊕ K)) (y : Said β) (f : β → List (Obj K V) × List (V ⊕ K)) (v : β) (l : List Msg) (k : ℕ) (x : Obj K V),
      c.run (c.args.map vars) = heard y f → y.out = .ok v → y.log = l → f v = ([x], []) → c.targets = [k] →
      alone vars [] [.call c b] = ⟨Function.update vars k x, [], none, toldBy l⟩ := by
    intro β c y f v l k x h1 h2 h3 h4 h5
    have : assign vars [k] [x] = Function.update vars k x := by
      funext j
      simp [assign, Function.update_apply]
    simp [alone, h1, heard, h2, h3, h4, h5, Except.map, Solo.after, toldBy, this]
  refine ⟨fun h1 h2 x h => ?_, fun h1 h => ?_, fun h1 h2 h => ?_, fun h1 => ?_, fun h1 => ?_, fun h1 h2 h => ?_, fun h1 h2 h => ?_, fun h1 h2 h => ?_,
    fun h1 h2 ds hd h => ?_⟩
  · refine key _ (Said.lift (Spline.mulScalar cfg w w')) (fun x => ([.num x], [])) x [] k _ ?_ h rfl rfl rfl
    simp only [MOp.call, NumOp.call, Call.among, List.map_cons, List.map_nil, h1, h2]
    show (_, Except.map _ (Except.map _ (Spline.mulScalar cfg w w'))) = _
    rw [h]; rfl
  · exact key _ (Said.lift (RSpline.ofSpline s)) (fun r => ([.rat r], [])) r [] k _ (by simp only [MOp.call, List.map_cons, List.map_nil, h1]; rfl) h rfl rfl rfl
  · exact key _ (Said.lift (RSpline.ofSplines s w)) (fun r => ([.rat r], [])) r [] k _ (by simp only [MOp.call, List.map_cons, List.map_nil, h1, h2]; rfl) h rfl rfl rfl
  · exact key _ (Said.lift (.ok q)) (fun r => ([.num r.wt], [])) q [] k _ (by simp only [MOp.call, List.map_cons, List.map_nil, h1]; rfl) rfl rfl rfl rfl
  · exact key _ (Said.lift (.ok q)) (fun r => ([.poly r.num], [])) q [] k _ (by simp only [MOp.call, List.map_cons, List.map_nil, h1]; rfl) rfl rfl rfl rfl
  · exact key _ (Said.lift (RSpline.mulWeight' cfg s w)) (fun r => ([.poly r], [])) s' [] k _ (by simp only [MOp.call, List.map_cons, List.map_nil, h1, h2]; rfl) h rfl rfl rfl
  · exact key _ (Messages.compose K cfg true s w) (fun r => ([.poly r], [])) s' [] k _ (by simp only [MOp.call, List.map_cons, List.map_nil, h1, h2]; rfl)
      ((out_compose cfg true s w).trans h) ((C105_compose cfg true s ⟨s, w⟩ w).1 _ h) rfl rfl
  · exact key _ (Messages.rCompose cfg scalar q s) (fun r => ([.rat r], [])) r [] k _ (by simp only [MOp.call, List.map_cons, List.map_nil, h1, h2]; rfl)
      ((out_rCompose cfg scalar q s).trans h) ((C105_compose cfg scalar s q s).2.2.1 _ h) rfl rfl
  · have e := key (MOp.call cfg tx (.composeRational k i j scalar)) (Messages.composeRational cfg scalar s q) (fun r => ([.rat r], [])) r _ k _
      (by simp only [MOp.call, List.map_cons, List.map_nil, h1, h2]; rfl)
      ((out_composeRational cfg scalar s q).trans h) ((C105_compose_rational cfg scalar s q q ds hd).1 _ h) rfl rfl
    rw [e]
    split <;> rfl

theorem mapM_ub {σ α : Type} {as : σ → M α} (h : ∀ x, (∃ y, as x = .ok y) ∨ as x = .error .ub) :
    ∀ xs : List σ, (∃ x ∈ xs, ∀ y, as x ≠ .ok y) → xs.mapM as = .error .ub
  | [], ⟨_, h', _⟩ => by simp at h'
  | x :: xs, ⟨z, hz, hn⟩ => by
    rw [List.mapM_cons]
    rcases h x with ⟨y, e⟩ | e
    · rw [e]
      have : xs.mapM as = .error .ub := mapM_ub h xs ⟨z, by
        rcases List.mem_cons.mp hz with rfl | hz
        · exact absurd e (hn y)
        · exact hz, hn⟩
      simp only [bind_ok, this]
      rfl
    · rw [e]; rfl

theorem among_ub {α ρ σ τ : Type} {as : σ → M α} {into : α → σ} {out : ρ → τ} (h : ∀ x, (∃ y, as x = .ok y) ∨ as x = .error .ub) (c : Call α ρ)
    (vars : ℕ → σ) (b : Bool) (hv : ∃ v ∈ c.args, ∀ y, as (vars v) ≠ .ok y) : alone vars [] [.call (c.among as into out) b] = ⟨vars, [], some .ub, []⟩ := by
  obtain ⟨v, hm, hn⟩ := hv
  have e := mapM_ub h (c.args.map vars) ⟨vars v, List.mem_map_of_mem hm, hn⟩
  simp only [alone, Call.among, e]

/-- C103 (variables of all types): a call reads each variable only as the type it has. With a variable of another type in its place (which C++
does not compile) it ends there: nothing is written, returned or reported. -/
theorem C103_mixed_types (cfg : Cfg) (tx : K → String) (vars : ℕ → Obj K V) (b : Bool) :
    (∀ o : Op K, (∃ v ∈ (o.call cfg tx : Call (Spline V) V).args, ∀ s, vars v ≠ .poly s) →
      alone vars [] [.call ((MOp.poly o).call cfg tx) b] = ⟨vars, [], some .ub, []⟩) ∧
    (∀ o : Op K, (∃ v ∈ (o.call cfg tx : Call (Spline K) K).args, ∀ s, vars v ≠ .num s) →
      alone vars [] [.call ((MOp.num o : MOp K V).call cfg tx) b] = ⟨vars, [], some .ub, []⟩) ∧
    (∀ o : ROp K V, (∃ v ∈ (o.call cfg tx).args, ∀ r, vars v ≠ .rat r) →
      alone vars [] [.call ((MOp.rat o).call cfg tx) b] = ⟨vars, [], some .ub, []⟩) := by
  have hp : ∀ x : Obj K V, (∃ y, x.asPoly = .ok y) ∨ x.asPoly = .error .ub := fun x => by cases x <;> simp [Obj.asPoly]
  have hn : ∀ x : Obj K V, (∃ y, x.asNum = .ok y) ∨ x.asNum = .error .ub := fun x => by cases x <;> simp [Obj.asNum]
  have hr : ∀ x : Obj K V, (∃ y, x.asRat = .ok y) ∨ x.asRat = .error .ub := fun x => by cases x <;> simp [Obj.asRat]
  refine ⟨fun o ⟨v, hv, h⟩ => among_ub hp _ _ _ ⟨v, hv, fun y e => ?_⟩, fun o ⟨v, hv, h⟩ => among_ub hn _ _ _ ⟨v, hv, fun y e => ?_⟩,
    fun o ⟨v, hv, h⟩ => among_ub hr _ _ _ ⟨v, hv, fun y e => ?_⟩⟩
  · cases hx : vars v with
    | poly s => exact h s hx
    | num s => rw [hx] at e; cases e
    | rat s => rw [hx] at e; cases e
  · cases hx : vars v with
    | num s => exact h s hx
    | poly s => rw [hx] at e; cases e
    | rat s => rw [hx] at e; cases e
  · cases hx : vars v with
    | rat s => exact h s hx
    | poly s => rw [hx] at e; cases e
    | num s => rw [hx] at e; cases e

end

/-! ### an example -/

/-- the calls of the example -/
def mop (o : MOp ℚ ℚ) : Stmt (Obj ℚ ℚ) (ℚ ⊕ ℚ) := .call (o.call ⟨10, 10⟩ fun z => toString z) false

/-- a spline of points, one of numbers, and a rational one, at the default level -/
def exMMem : Mem (Obj ℚ ℚ) :=
  ⟨fun i => if i = 0 then .poly (Ex.line 0 2) else if i = 1 then .num (Ex.line (1 / 2) 1) else .rat ⟨Ex.curve 0 1 4, Ex.curve 1 2 4⟩, 39,
    fun _ => ⟨false, []⟩⟩

/-- both threads read the variables 0, 1 and 2 and write to variables of their own -/
def exMOps : List (List (Stmt (Obj ℚ ℚ) (ℚ ⊕ ℚ))) :=
  [[mop (.assemble 3 0 1), mop (.rat (.add 3 3 2)), mop (.rat (.evaluate 3 [1 / 2]))],
    [mop (.weigh 4 0 1), mop (.composeNum 5 4 1), mop (.poly (.evaluate 5 [1 / 3]))]]

theorem exMOps_separate : Separate exMOps := by
  intro i j p q hij hp hq v hv hu
  have hi := (List.getElem?_eq_some_iff.mp hp).1
  have hj := (List.getElem?_eq_some_iff.mp hq).1
  simp only [exMOps, List.length_cons, List.length_nil] at hi hj
  obtain ⟨rfl, rfl⟩ | ⟨rfl, rfl⟩ : i = 0 ∧ j = 1 ∨ i = 1 ∧ j = 0 := by omega
  all_goals
    simp only [exMOps, List.getElem?_cons_zero, List.getElem?_cons_succ, Option.some.injEq] at hp hq
    subst hp hq
    simp only [changes, uses, List.mem_cons, List.not_mem_nil, or_false, Set.mem_ofPred_eq] at hv hu
    obtain ⟨c, b, h1, h2⟩ := hv
    obtain ⟨c', b', h1', h2'⟩ := hu
    simp only [mop, Stmt.call.injEq] at h1 h1'
    rcases h1 with ⟨rfl, -⟩ | ⟨rfl, -⟩ | ⟨rfl, -⟩ <;> rcases h1' with ⟨rfl, -⟩ | ⟨rfl, -⟩ | ⟨rfl, -⟩ <;>
      simp [MOp.call, ROp.call, Op.call, Call.among] at h2 h2' <;> omega

theorem exMOps_ok : ∀ p ∈ exMOps, (alone exMMem.vars [] p).error = none := by decide +kernel

example (enabled : Bool) (sch : List ℕ) : ¬ DataRace ((start enabled exMMem exMOps).run sch) :=
  C103_mixed_ops_partial ⟨10, 10⟩ (fun z : ℚ => toString z) enabled exMMem rfl exMOps exMOps_separate
    (by
      intro p hp s hs
      simp only [exMOps, List.mem_cons, List.not_mem_nil, or_false] at hp
      rcases hp with rfl | rfl
      all_goals
        simp only [List.mem_cons, List.not_mem_nil, or_false] at hs
        rcases hs with rfl | rfl | rfl <;> exact ⟨_, by simp, rfl⟩)
    (fun p hp => by rw [exMOps_ok p hp]; simp) sch

/-- both threads compute something -/
example : (exMOps.map fun p => (alone exMMem.vars [] p).outs.length) = [1, 1] := by decide +kernel

/-- a thread that elevates the degree of the spline of points and evaluates it -/
example : ((alone exMMem.vars [] [mop (.poly (.elevate 0 0)), mop (.poly (.evaluate 0 [1 / 2]))]).said).length = 1 ∧
    (alone exMMem.vars [] [mop (.poly (.elevate 0 0)), mop (.poly (.evaluate 0 [1 / 2]))]).outs = [.inl 1] := by decide +kernel

/-- `C103_mixed_poly` applies to this thread: the variable 0 holds a spline of points. -/
example : (alone exMMem.vars [] [mop (.poly (.elevate 0 0)), mop (.poly (.evaluate 0 [1 / 2]))]).outs =
    (alone (fun _ => Ex.line (0 : ℚ) 2) [] [.call (Op.call ⟨10, 10⟩ (fun z : ℚ => toString z) (.elevate 0 0)) false,
      .call (Op.call ⟨10, 10⟩ (fun z : ℚ => toString z) (.evaluate 0 [1 / 2])) false]).outs.map Sum.inl :=
  (C103_mixed_poly ⟨10, 10⟩ (fun z : ℚ => toString z) [(.elevate 0 0, false), (.evaluate 0 [1 / 2], false)] exMMem.vars
    (fun _ => Ex.line 0 2) {0} (by rintro v rfl; rfl) (by
      intro o ho v hv
      simp only [List.mem_cons, List.not_mem_nil, or_false] at ho
      rcases ho with rfl | rfl <;> simpa [Op.call] using hv)).2.2.1

/-- a line composed with a rational line, in two threads: `C103_mixed_silent_partial` applies -/
example (enabled : Bool) (sch : List ℕ) : ¬ DataRace ((start enabled ⟨fun i => if i = 0 then .poly (Ex.line (0 : ℚ) 2) else
    .rat ⟨Ex.line 0 1, Ex.line 1 2⟩, 39, fun _ => ⟨false, []⟩⟩ [[mop (.composeRational 2 0 1 true)], [mop (.rat (.evaluate 1 [1 / 2]))]]).run sch) :=
  C103_mixed_silent_partial ⟨10, 10⟩ (fun z : ℚ => toString z) enabled _ rfl _ (by
    intro i j p q hij hp hq v hv hu
    have hi := (List.getElem?_eq_some_iff.mp hp).1
    have hj := (List.getElem?_eq_some_iff.mp hq).1
    simp only [List.length_cons, List.length_nil] at hi hj
    obtain ⟨rfl, rfl⟩ | ⟨rfl, rfl⟩ : i = 0 ∧ j = 1 ∨ i = 1 ∧ j = 0 := by omega
    all_goals
      simp only [List.getElem?_cons_zero, List.getElem?_cons_succ, Option.some.injEq] at hp hq
      subst hp hq
      simp only [changes, uses, List.mem_cons, List.not_mem_nil, or_false, Set.mem_ofPred_eq] at hv hu
      obtain ⟨c, b, h1, h2⟩ := hv
      obtain ⟨c', b', h1', h2'⟩ := hu
      simp only [mop, Stmt.call.injEq] at h1 h1'
      obtain ⟨rfl, -⟩ := h1
      obtain ⟨rfl, -⟩ := h1'
      simp [MOp.call, ROp.call, Call.among] at h2 h2' <;> omega)
    (by
      intro p hp s hs
      simp only [List.mem_cons, List.not_mem_nil, or_false] at hp
      rcases hp with rfl | rfl
      all_goals
        simp only [List.mem_cons, List.not_mem_nil, or_false] at hs
        exact ⟨_, hs⟩)
    (by decide +kernel) sch

/-- a constant spline and a rational one in the unit interval -/
def exConst : Mem (Obj ℚ ℚ) :=
  ⟨fun i => if i = 0 then .poly ⟨[0], 1, [1], [7]⟩ else .rat ⟨Ex.line 0 1, Ex.line 1 2⟩, 39, fun _ => ⟨false, []⟩⟩

/-- each thread composes the constant spline with the rational one -/
def exConstOps : List (List (Stmt (Obj ℚ ℚ) (ℚ ⊕ ℚ))) := [[mop (.composeRational 2 0 1 true)], [mop (.composeRational 3 0 1 true)]]

theorem exConstOps_separate : Separate exConstOps := by
  intro i j p q hij hp hq v hv hu
  have hi := (List.getElem?_eq_some_iff.mp hp).1
  have hj := (List.getElem?_eq_some_iff.mp hq).1
  simp only [exConstOps, List.length_cons, List.length_nil] at hi hj
  obtain ⟨rfl, rfl⟩ | ⟨rfl, rfl⟩ : i = 0 ∧ j = 1 ∨ i = 1 ∧ j = 0 := by omega
  all_goals
    simp only [exConstOps, List.getElem?_cons_zero, List.getElem?_cons_succ, Option.some.injEq] at hp hq
    subst hp hq
    simp only [changes, uses, List.mem_cons, List.not_mem_nil, or_false, Set.mem_ofPred_eq] at hv hu
    obtain ⟨c, b, h1, h2⟩ := hv
    obtain ⟨c', b', h1', h2'⟩ := hu
    simp only [mop, Stmt.call.injEq] at h1 h1'
    obtain ⟨rfl, -⟩ := h1
    obtain ⟨rfl, -⟩ := h1'
    simp [MOp.call] at h2 h2'
    omega

/-- C103. Composing a polynomial spline with a rational one is not safe at the default level: the composition of a constant spline reports
that raising to 0 is inefficient, so two threads that do this with results of their own, without any error, race for the buffer of the time
stamp. -/
theorem C103_constant_compose_fails : Separate exConstOps ∧ (∀ p ∈ exConstOps, LeavesLevel p) ∧
    (∀ p ∈ exConstOps, (alone exConst.vars [] p).error = none) ∧ ∃ sch, DataRace ((start true exConst exConstOps).run sch) := by
  refine ⟨exConstOps_separate, by simp [exConstOps, mop, LeavesLevel], by decide +kernel, List.replicate 10 0 ++ List.replicate 10 1, ?_⟩
  have h : (((start true exConst exConstOps).run (List.replicate 10 0 ++ List.replicate 10 1)).threads.map Act.access) =
      [some (.clock, true), some (.clock, true)] := by decide +kernel
  obtain ⟨a, l, e, ha, h⟩ := List.map_eq_cons_iff.mp h
  obtain ⟨b, l', e', hb, -⟩ := List.map_eq_cons_iff.mp h
  subst e'
  exact ⟨0, 1, a, b, .clock, true, true, by decide, by rw [e]; rfl, by rw [e]; rfl, ha, hb, .inl rfl⟩

end Bezman.Props
