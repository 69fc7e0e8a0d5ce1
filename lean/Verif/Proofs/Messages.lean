import Verif.Spec.Messages
import Verif.Proofs.Consistent

/-! # Messages: erasure, and which computations do not throw -/

namespace Bezman
variable {α β σ : Type}

namespace Said

@[simp] theorem out_bind (x : Said α) (f : α → Said β) : (x >>= f).out = x.out >>= fun a => (f a).out := by
  show (Said.bind x f).out = _
  unfold Said.bind
  cases x.out <;> rfl

@[simp] theorem out_pure (a : α) : (pure a : Said α).out = pure a := rfl
@[simp] theorem out_lift (m : M α) : (lift m).out = m := rfl
@[simp] theorem out_say (k : Kind) (t : String) : (say k t).out = .ok () := rfl
@[simp] theorem out_terminate (t : String) : (terminate t : Said α).out = .error .throws := rfl
@[simp] theorem log_pure (a : α) : (pure a : Said α).log = [] := rfl
@[simp] theorem log_lift (m : M α) : (lift m).log = [] := rfl
@[simp] theorem log_say (k : Kind) (t : String) : (say k t).log = [⟨k, t⟩] := rfl
@[simp] theorem log_terminate (t : String) : (terminate t : Said α).log = [⟨.terminating, t⟩] := rfl

theorem log_bind_ok {x : Said α} {f : α → Said β} {a : α} (h : x.out = .ok a) : (x >>= f).log = x.log ++ (f a).log := by
  show (Said.bind x f).log = _
  simp [Said.bind, h]

theorem log_bind_error {x : Said α} {f : α → Said β} {e : Err} (h : x.out = .error e) : (x >>= f).log = x.log := by
  show (Said.bind x f).log = _
  simp [Said.bind, h]

@[simp] theorem log_lift_bind (m : M α) (f : α → Said β) :
    (lift m >>= f).log = match m with | .ok a => (f a).log | .error _ => [] := by
  cases m with
  | ok a => rw [log_bind_ok (a := a) rfl]; rfl
  | error e => rw [log_bind_error (e := e) rfl]; rfl

@[simp] theorem log_say_bind (k : Kind) (t : String) (f : Unit → Said β) : (say k t >>= f).log = ⟨k, t⟩ :: (f ()).log := by
  rw [log_bind_ok (a := ()) rfl]; rfl

@[simp] theorem ite_out {c : Prop} [Decidable c] (x y : Said α) : (if c then x else y).out = if c then x.out else y.out := by
  split <;> rfl

@[simp] theorem out_loopS (n : Nat) (f : Nat → σ → Said σ) (s : σ) : (loopS n f s).out = loop n (fun i s => (f i s).out) s := by
  induction n with
  | zero => rfl
  | succ n ih => rw [loopS, out_bind, ih]; rfl

@[simp] theorem out_loopFromS (a b : Nat) (f : Nat → σ → Said σ) (s : σ) :
    (loopFromS a b f s).out = loopFrom a b (fun i s => (f i s).out) s := by
  rw [loopFromS, out_loopS]; rfl

@[simp] theorem out_whileS (n : Nat) (c : σ → M Bool) (f : σ → Said σ) (s : σ) :
    (whileS n c f s).out = whileM n c (fun s => (f s).out) s := by
  induction n generalizing s with
  | zero => rfl
  | succ n ih =>
    rw [whileS, out_bind, out_lift, whileM]
    cases c s with
    | error e => rfl
    | ok b =>
      cases b with
      | false => rfl
      | true =>
        show ((f s >>= whileS n c f).out : M σ) = _
        rw [out_bind]
        simp only [ih]

theorem lift_ok_bind (a : α) (f : α → Said β) : (lift (.ok a) >>= f) = f a := rfl

theorem whileS_true {n : Nat} {c : σ → M Bool} {f : σ → Said σ} {s : σ} (h : c s = .ok true) :
    whileS (n + 1) c f s = f s >>= whileS n c f := by
  rw [whileS, h, lift_ok_bind]; rfl

theorem whileS_false {n : Nat} {c : σ → M Bool} {f : σ → Said σ} {s : σ} (h : c s = .ok false) :
    whileS (n + 1) c f s = pure s := by
  rw [whileS, h, lift_ok_bind]; rfl

end Said

/-! ## Computations that do not throw -/

/-- the call does not end with an exception -/
structure NoThrow (m : M α) : Prop where
  ne : m ≠ .error .throws

namespace NoThrow

theorem ok (a : α) : NoThrow (.ok a) := ⟨by simp⟩
theorem pure (a : α) : NoThrow (Pure.pure a) := ok a
theorem bind {m : M α} {f : α → M β} (h : NoThrow m) (hf : ∀ a, NoThrow (f a)) : NoThrow (m >>= f) := by
  cases m with
  | ok a => exact hf a
  | error e => exact ⟨fun h' => h.ne (by cases h'; rfl)⟩
theorem rd (l : List α) (i : Nat) : NoThrow (rd l i) := by unfold Bezman.rd; constructor; split <;> simp
theorem wr (l : List α) (i : Nat) (x : α) : NoThrow (wr l i x) := by unfold Bezman.wr; constructor; split <;> simp
theorem assertM (b : Bool) : NoThrow (assertM b) := by unfold Bezman.assertM; constructor; split <;> simp
theorem divU (a b : Nat) : NoThrow (divU a b) := by unfold Bezman.divU; constructor; split <;> simp
theorem modU (a b : Nat) : NoThrow (modU a b) := by unfold Bezman.modU; constructor; split <;> simp
theorem narrow (a : Nat) : NoThrow (narrow a) := by unfold Bezman.narrow; constructor; split <;> simp
theorem ub : NoThrow (.error .ub : M α) := ⟨by simp⟩
theorem outOfFuel : NoThrow (.error .outOfFuel : M α) := ⟨by simp⟩
theorem divZero : NoThrow (.error .divZero : M α) := ⟨by simp⟩
theorem loop {n : Nat} {f : Nat → σ → M σ} {s : σ} (h : ∀ i s, NoThrow (f i s)) : NoThrow (loop n f s) := by
  induction n with
  | zero => exact ok s
  | succ n ih => exact bind ih (h n)
theorem loopFrom {a b : Nat} {f : Nat → σ → M σ} {s : σ} (h : ∀ i s, NoThrow (f i s)) : NoThrow (loopFrom a b f s) :=
  loop fun _ _ => h _ _
theorem loopDown {n : Nat} {f : Nat → σ → M σ} {s : σ} (h : ∀ i s, NoThrow (f i s)) : NoThrow (loopDown n f s) :=
  loop fun _ _ => h _ _
theorem whileM {n : Nat} {c : σ → M Bool} {f : σ → M σ} {s : σ} (hc : ∀ s, NoThrow (c s)) (h : ∀ s, NoThrow (f s)) :
    NoThrow (whileM n c f s) := by
  induction n generalizing s with
  | zero => exact outOfFuel
  | succ n ih =>
    unfold Bezman.whileM
    split
    · rename_i e he; exact ⟨fun h' => (hc s).ne (by cases h'; exact he)⟩
    · exact ok s
    · exact bind (h s) fun _ => ih

end NoThrow

/-- closes goals `NoThrow m` by following the program text of `m`; `l` are the facts about the functions it calls -/
syntax "nothrow" ("[" term,* "]")? : tactic
macro_rules
  | `(tactic| nothrow) => `(tactic| nothrow [])
  | `(tactic| nothrow [$ls,*]) => do
    let ts := ls.getElems
    let mut alts : Array (Lean.TSyntax `tactic) := #[]
    for t in ts do
      alts := alts.push (← `(tactic| with_reducible apply $t))
    `(tactic| repeat' (first
        | intro _
        | with_reducible exact NoThrow.ok _
        | with_reducible exact NoThrow.pure _
        | with_reducible exact NoThrow.rd _ _
        | with_reducible exact NoThrow.wr _ _ _
        | with_reducible exact NoThrow.assertM _
        | with_reducible exact NoThrow.divU _ _
        | with_reducible exact NoThrow.modU _ _
        | with_reducible exact NoThrow.narrow _
        | with_reducible exact NoThrow.ub
        | with_reducible exact NoThrow.outOfFuel
        | with_reducible exact NoThrow.divZero
        $[| $alts:tactic]*
        | with_reducible apply NoThrow.bind
        | with_reducible apply NoThrow.loop
        | with_reducible apply NoThrow.loopFrom
        | with_reducible apply NoThrow.loopDown
        | with_reducible apply NoThrow.whileM
        | split
        | assumption
        | dsimp only))

namespace NoThrow
variable {K V W U : Type}

theorem updateIndexOffsets (a b : List Nat) : NoThrow (Spline.updateIndexOffsets a b) := by
  unfold Spline.updateIndexOffsets; nothrow
theorem ofDegrees [Zero V] (d : List Nat) : NoThrow (Spline.ofDegrees (V := V) d) := by
  unfold Spline.ofDegrees; nothrow [updateIndexOffsets]
theorem ofPoints (d : List Nat) (p : List V) : NoThrow (Spline.ofPoints d p) := by
  unfold Spline.ofPoints; nothrow [updateIndexOffsets]
theorem localToGlobal (s : Spline V) (i : Nat) : NoThrow (s.localToGlobal i) := by
  unfold Spline.localToGlobal; nothrow
theorem globalToLocal (s : Spline V) (i : List Nat) : NoThrow (s.globalToLocal i) := by
  unfold Spline.globalToLocal; nothrow
theorem controlPoint (s : Spline V) (i : List Nat) : NoThrow (s.controlPoint i) := by
  unfold Spline.controlPoint; nothrow [globalToLocal]
theorem setControlPoint (s : Spline V) (i : List Nat) (x : V) : NoThrow (s.setControlPoint i x) := by
  unfold Spline.setControlPoint; nothrow [globalToLocal]
theorem binomTable (n : Nat) : NoThrow (binomTable n) := by
  unfold Bezman.binomTable; nothrow
theorem choose (cfg : Cfg) (n i : Nat) : NoThrow (choose cfg n i) := by
  unfold Bezman.choose; nothrow [binomTable]
theorem mapCps (s : Spline V) (f : V → V) : NoThrow (s.mapCps f) := by
  unfold Spline.mapCps; nothrow
theorem smulOp [SMul K V] (s : Spline V) (c : K) : NoThrow (s.smulOp c) := mapCps _ _
theorem subPoint [Sub V] (s : Spline V) (x : V) : NoThrow (s.subPoint x) := mapCps _ _
theorem negOp [Neg V] (s : Spline V) : NoThrow s.negOp := by
  unfold Spline.negOp; nothrow
theorem pointSub [Sub V] [Neg V] (x : V) (s : Spline V) : NoThrow (Spline.pointSub x s) := by
  unfold Spline.pointSub; nothrow [subPoint, negOp]
theorem zipCps (n : Nat) (f : V → V → V) (a b : List V) : NoThrow (Spline.zipCps n f a b) := by
  unfold Spline.zipCps; nothrow

section
variable [One K] [Sub K] [Mul K] [Div K] [NatCast K] [Zero V] [Add V] [SMul K V]
omit [One K] [Sub K] [Mul K] [Div K] [NatCast K] [Zero V] [Add V] [SMul K V] in
theorem elevStore {value : List V → M V} (h : ∀ l, NoThrow (value l)) (st : List V × Nat) : NoThrow (Spline.elevStore value st) := by
  unfold Spline.elevStore; nothrow [h]
theorem orderElevate (s : Spline V) (d : Nat) : NoThrow (Spline.orderElevate K s d) := by
  unfold Spline.orderElevate; nothrow [elevStore, updateIndexOffsets]
end

theorem globalIdWith (d : List Nat) (i : Nat) : NoThrow (Spline.globalIdWith d i) := by
  unfold Spline.globalIdWith; nothrow
theorem ofDegrees64 [Zero V] (d : List Nat) : NoThrow (Spline.ofDegrees64 (V := V) d) := by
  unfold Spline.ofDegrees64; nothrow
theorem derivativeSpline [One K] [Neg K] [Mul K] [NatCast K] [Zero V] [Add V] [SMul K V] (cfg : Cfg) (s : Spline V) (o : List Nat) :
    NoThrow (Spline.derivativeSpline K cfg s o) := by
  unfold Spline.derivativeSpline; nothrow [globalIdWith, ofDegrees64, globalToLocal, localToGlobal, choose]

section
variable [One K] [Mul K] [Div K] [NatCast K] [Zero U] [Add U] [SMul K U]
theorem combineForProduct (cfg : Cfg) (mul : V → W → U) (P : Spline V) (Q : Spline W) (idx : List Nat) (rem : Nat) (factor : K)
    (indices : List Nat) (R : Spline U) : NoThrow (Spline.combineForProduct cfg mul P Q idx rem factor indices R) := by
  induction rem generalizing factor indices R with
  | zero => unfold Spline.combineForProduct; nothrow [choose, controlPoint, setControlPoint]
  | succ n ih => unfold Spline.combineForProduct; nothrow [choose, ih]
theorem mulOp (cfg : Cfg) (mul : V → W → U) (s : Spline V) (r : Spline W) : NoThrow (Spline.mulOp K cfg mul s r) := by
  unfold Spline.mulOp; nothrow [ofDegrees, localToGlobal, combineForProduct]
end

section
variable [Zero K] [One K] [Add K] [Mul K] [Div K] [NatCast K]
theorem mulScalar (cfg : Cfg) (s r : Spline K) : NoThrow (Spline.mulScalar cfg s r) := mulOp _ _ _ _
omit [Zero K] [Add K] [Mul K] [Div K] [NatCast K] in
theorem oneSpline (n : Nat) : NoThrow (Spline.oneSpline (K := K) n) := ofPoints _ _
theorem composeBernstein (cfg : Cfg) (p n : Nat) (e i : Spline K) : NoThrow (Spline.composeBernstein cfg p n e i) := by
  unfold Spline.composeBernstein; nothrow [mulScalar, oneSpline, choose, smulOp]
theorem composeTensor (cfg : Cfg) (b : List (List (Spline K))) (i : List Nat) : NoThrow (Spline.composeTensor cfg b i) := by
  unfold Spline.composeTensor; nothrow [mulScalar]
variable [Zero V] [Add V] [SMul K V]
theorem mulWeight (cfg : Cfg) (w : Spline K) (s : Spline V) : NoThrow (RSpline.mulWeight cfg w s) := mulOp _ _ _ _
theorem mulWeight' (cfg : Cfg) (s : Spline V) (w : Spline K) : NoThrow (RSpline.mulWeight' cfg s w) := mulOp _ _ _ _
end

theorem splitAt [Zero K] [One K] [Sub K] [LT K] [DecidableLT K] [Add V] [SMul K V] (s : Spline V) (z : K) (d : Nat) (hz : 0 < z ∧ z < 1) :
    NoThrow (s.splitAt z d) := by
  unfold Spline.splitAt
  rw [if_neg (not_not_intro hz)]
  nothrow

section
variable [Coords K V]
theorem extractDimension [Zero K] (s : Spline V) {d : Nat} (h : d < Coords.n K V) : NoThrow (Spline.extractDimension K s d) := by
  unfold Spline.extractDimension
  rw [dif_pos h]
  nothrow [ofDegrees]
theorem transposeAndScale [Add K] [Mul K] (s : Spline V) (a b : V) : NoThrow (Spline.transposeAndScale K s a b) := mapCps _ _
variable [LT K] [DecidableLT K]
theorem maximumCorner (s : Spline V) (h : s.ncp ≠ 0) : NoThrow (Spline.maximumCorner K s) := by
  unfold Spline.maximumCorner
  rw [if_neg h]
  nothrow
theorem minimumCorner (s : Spline V) (h : s.ncp ≠ 0) : NoThrow (Spline.minimumCorner K s) := by
  unfold Spline.minimumCorner
  rw [if_neg h]
  nothrow
omit [LT K] [DecidableLT K] [Coords K V] in
theorem divM [Zero K] [BEq K] [ScalarDiv K V] (x : V) (w : K) : NoThrow (divM x w) := by
  unfold Bezman.divM; nothrow
omit [LT K] [DecidableLT K] in
theorem corner [Zero K] [BEq K] [ScalarDiv K V] (pick : K → K → K) (r : RSpline K V) (h : r.num.ncp ≠ 0) : NoThrow (RSpline.corner pick r) := by
  unfold RSpline.corner RSpline.localToGlobal RSpline.controlPoint
  rw [if_neg h]
  nothrow [localToGlobal, controlPoint, divM]
end

theorem ofSplines (n : Spline V) (w : Spline K) : NoThrow (RSpline.ofSplines n w) := by
  unfold RSpline.ofSplines; nothrow
theorem rescaleSensitivities [Mul K] (r : RSpline K V) (ns : List (Spline K)) (d : Spline K) : NoThrow (r.rescaleSensitivities ns d) := by
  unfold RSpline.rescaleSensitivities; nothrow [smulOp, ofSplines]

end NoThrow

/-! ## Failures are announced -/

namespace Spec.Announces
open Said

theorem lift {m : M α} (h : NoThrow m) : Announces (Said.lift m) := .inr ⟨h.ne, by simp⟩
theorem pure (a : α) : Announces (Pure.pure a : Said α) := lift (NoThrow.ok a)
theorem say {k : Kind} (h : k ≠ .terminating) (t : String) : Announces (Said.say k t) := .inr ⟨by simp, by simpa using h⟩
theorem terminate (t : String) : Announces (Said.terminate t : Said α) := .inl ⟨rfl, [], ⟨.terminating, t⟩, rfl, rfl, by simp⟩

theorem bind {x : Said α} {f : α → Said β} (h : Announces x) (hf : ∀ a, Announces (f a)) : Announces (x >>= f) := by
  cases hx : x.out with
  | error e =>
    have ho : (x >>= f).out = .error e := by rw [out_bind, hx]; rfl
    rcases h with ⟨h1, h2⟩ | ⟨h1, h2⟩
    · exact .inl ⟨by rw [ho]; rw [hx] at h1; cases h1; rfl, by rw [log_bind_error hx]; exact h2⟩
    · exact .inr ⟨by rw [ho]; intro hc; exact h1 (by rw [hx]; cases hc; rfl), by rw [log_bind_error hx]; exact h2⟩
  | ok a =>
    have ho : (x >>= f).out = (f a).out := by rw [out_bind, hx]; rfl
    have hq : ∀ m ∈ x.log, m.kind ≠ .terminating := by
      rcases h with ⟨h1, -⟩ | ⟨-, h2⟩
      · rw [hx] at h1; cases h1
      · exact h2
    rcases hf a with ⟨h1, l, m, h2, h3, h4⟩ | ⟨h1, h2⟩
    · exact .inl ⟨by rw [ho, h1], x.log ++ l, m, by rw [log_bind_ok hx, h2, List.append_assoc], h3,
        fun n hn => (List.mem_append.1 hn).elim (hq n) (h4 n)⟩
    · exact .inr ⟨by rw [ho]; exact h1, by
        rw [log_bind_ok hx]; exact fun n hn => (List.mem_append.1 hn).elim (hq n) (h2 n)⟩

theorem loopS {n : Nat} {f : Nat → σ → Said σ} {s : σ} (h : ∀ i s, Announces (f i s)) : Announces (Said.loopS n f s) := by
  induction n with
  | zero => exact pure s
  | succ n ih => exact bind ih (h n)
theorem loopFromS {a b : Nat} {f : Nat → σ → Said σ} {s : σ} (h : ∀ i s, Announces (f i s)) : Announces (Said.loopFromS a b f s) :=
  loopS fun _ _ => h _ _
theorem whileS {n : Nat} {c : σ → M Bool} {f : σ → Said σ} {s : σ} (hc : ∀ s, NoThrow (c s)) (h : ∀ s, Announces (f s)) :
    Announces (Said.whileS n c f s) := by
  induction n generalizing s with
  | zero => exact lift NoThrow.outOfFuel
  | succ n ih =>
    unfold Said.whileS
    refine bind (lift (hc s)) fun b => ?_
    split
    · exact bind (h s) fun _ => ih
    · exact pure s

end Spec.Announces

/-- closes goals `Announces x` by following the program text -/
syntax "announces" ("[" term,* "]")? : tactic
macro_rules
  | `(tactic| announces) => `(tactic| announces [])
  | `(tactic| announces [$ls,*]) => do
    let ts := ls.getElems
    let mut alts : Array (Lean.TSyntax `tactic) := #[]
    for t in ts do
      alts := alts.push (← `(tactic| with_reducible apply $t))
    `(tactic| repeat' (first
        | intro _
        | with_reducible exact Spec.Announces.pure _
        | with_reducible exact Spec.Announces.terminate _
        | with_reducible exact Spec.Announces.say (by decide) _
        $[| $alts:tactic]*
        | (with_reducible apply Spec.Announces.lift; nothrow [$ls,*]; done)
        | with_reducible apply Spec.Announces.bind
        | with_reducible apply Spec.Announces.loopS
        | with_reducible apply Spec.Announces.loopFromS
        | (with_reducible refine Spec.Announces.whileS (fun _ => ?_) (fun _ => ?_); · nothrow)
        | split
        | assumption
        | dsimp only))

/-! ## Results -/

namespace Messages
open Said
variable {K V W : Type}

theorem orderElevate_degrees [One K] [Sub K] [Mul K] [Div K] [NatCast K] [Zero V] [Add V] [SMul K V] {s s' : Spline V} {d : ℕ}
    (hr : Spline.orderElevate K s d = .ok s') : ∃ p, s.degrees[d]? = some p ∧ s'.degrees = s.degrees.set d (p + 1) := by
  unfold Spline.orderElevate at hr
  obtain ⟨p, hp, hr⟩ := bind_eq_ok.mp hr
  rw [rd_ok_iff] at hp
  obtain ⟨off, _, hr⟩ := bind_eq_ok.mp hr
  obtain ⟨_, _, hr⟩ := bind_eq_ok.mp hr
  obtain ⟨_, _, hr⟩ := bind_eq_ok.mp hr
  obtain ⟨_, _, hr⟩ := bind_eq_ok.mp hr
  obtain ⟨_, _, hr⟩ := bind_eq_ok.mp hr
  simp only [] at hr
  obtain ⟨nd, hnd, hr⟩ := bind_eq_ok.mp hr
  obtain ⟨_, _, hr⟩ := bind_eq_ok.mp hr
  obtain ⟨st, hst, hr⟩ := bind_eq_ok.mp hr
  obtain ⟨o, ho, hr⟩ := bind_eq_ok.mp hr
  simp only [pure_eq_ok, Except.ok.injEq] at hr
  obtain ⟨hd, rfl⟩ := wr_eq hnd
  exact ⟨p, hp, by rw [← hr]⟩

section
variable [One K] [Sub K] [Mul K] [Div K] [NatCast K] [Zero V] [Add V] [SMul K V]

theorem out_orderElevate (s : Spline V) (d : ℕ) : (orderElevate K s d).out = s.orderElevate K d := by
  unfold orderElevate
  simp only [out_bind, out_lift, out_say, out_pure]
  cases h : Spline.orderElevate K s d with
  | error e => rfl
  | ok r =>
    obtain ⟨p, hp, hr⟩ := orderElevate_degrees h
    have hd : d < s.degrees.length := (List.getElem?_eq_some_iff.mp hp).1
    simp only [bind_ok]
    rw [rd_ok (x := p + 1) (by rw [hr, List.getElem?_set_self hd])]
    rfl

theorem log_orderElevate {s r : Spline V} {d : ℕ} (h : Spline.orderElevate K s d = .ok r) :
    ∃ p, s.degrees[d]? = some p ∧ r.degrees = s.degrees.set d (p + 1) ∧ (orderElevate K s d).log = [Spec.elevated d (p + 1)] := by
  obtain ⟨p, hp, hr⟩ := orderElevate_degrees h
  refine ⟨p, hp, hr, ?_⟩
  have hd : d < s.degrees.length := (List.getElem?_eq_some_iff.mp hp).1
  unfold orderElevate
  rw [log_lift_bind, h]
  simp only [log_lift_bind]
  rw [rd_ok (x := p + 1) (by rw [hr, List.getElem?_set_self hd])]
  rfl

theorem out_elevateTo (cfg : Cfg) (s : Spline V) (t : List ℕ) : (elevateTo K cfg s t).out = s.elevateTo K cfg t := by
  unfold elevateTo Spline.elevateTo
  simp only [out_loopS, out_whileS, out_orderElevate]

theorem out_addAux (cfg : Cfg) (depth : ℕ) (s r : Spline V) : (addAux K cfg depth s r).out = Spline.addAux K cfg depth s r := by
  induction depth generalizing s r with
  | zero => rfl
  | succ n ih =>
    unfold addAux Spline.addAux
    simp only [out_bind, out_lift, out_elevateTo, ite_out, out_pure, ih]

theorem out_addOp (cfg : Cfg) (s r : Spline V) : (addOp K cfg s r).out = s.addOp K cfg r := out_addAux ..

theorem out_addAssign (cfg : Cfg) (s r : Spline V) : (addAssign K cfg s r).out = s.addAssign K cfg r := by
  unfold addAssign Spline.addAssign
  simp only [out_bind, out_lift, out_elevateTo, out_pure]

theorem out_subOp [Sub V] (cfg : Cfg) (s r : Spline V) : (subOp K cfg s r).out = s.subOp K cfg r := by
  unfold subOp Spline.subOp
  simp only [out_bind, out_lift, out_elevateTo, out_pure, out_loopS, out_whileS, out_orderElevate]

theorem out_subAssign [Sub V] (cfg : Cfg) (s r : Spline V) : (subAssign K cfg s r).out = s.subAssign K cfg r := by
  unfold subAssign Spline.subAssign
  simp only [out_bind, out_lift, out_elevateTo, out_pure]

end

theorem showOrders_ok {o : ℕ} {orders : List ℕ} :
    showOrders (o :: orders) = .ok ("[ " ++ ", ".intercalate ((o :: orders).map toString) ++ "]") := by
  unfold showOrders
  rw [rd_ok (x := o) rfl]
  simp only [bind_ok]
  unfold loopFrom
  rw [loop_eq (fun k => "[ " ++ ", ".intercalate (((o :: orders).take (k + 1)).map toString))]
  · simp only [bind_ok, List.length_cons, Nat.add_sub_cancel]
    rw [List.take_of_length_le (by simp)]
    rfl
  · simp
  · intro k hk
    have hk' : k + 1 < (o :: orders).length := by simp at hk ⊢; omega
    dsimp only
    rw [Nat.add_comm 1 k, rd_getElem hk', bind_ok, List.take_add_one (i := k + 1), List.getElem?_eq_getElem hk', List.map_append,
      String.intercalate_append_of_ne_nil (by simp) (by simp)]
    simp [String.append_assoc, pure_eq_ok]

section
variable [One K] [Neg K] [Mul K] [NatCast K] [Zero V] [Add V] [SMul K V]

theorem out_derivativeSpline (cfg : Cfg) (s : Spline V) {orders : List ℕ} (h : orders ≠ []) :
    (derivativeSpline K cfg s orders).out = s.derivativeSpline K cfg orders := by
  obtain ⟨o, l, rfl⟩ := List.exists_cons_of_ne_nil h
  unfold derivativeSpline
  simp only [out_bind, out_lift, out_say, out_pure, showOrders_ok, bind_ok]
  cases Spline.derivativeSpline K cfg s (o :: l) <;> rfl

theorem log_derivativeSpline (cfg : Cfg) (s : Spline V) {orders : List ℕ} (h : orders ≠ []) :
    (derivativeSpline K cfg s orders).log =
      if (s.derivativeSpline K cfg orders).isOk then Spec.derived orders else (Spec.derived orders).take 1 := by
  obtain ⟨o, l, rfl⟩ := List.exists_cons_of_ne_nil h
  unfold derivativeSpline
  simp only [log_lift_bind, showOrders_ok, log_say_bind]
  have e : "Calculating derivative splines with orders [ " = "Calculating derivative splines with orders " ++ "[ " := rfl
  cases Spline.derivativeSpline K cfg s (o :: l) with
  | ok r => simp only [Spec.derived, e, String.append_assoc, log_pure]; rfl
  | error _ => simp only [Spec.derived, e, String.append_assoc]; rfl

end

section
variable [Coords K V]

theorem out_extractDimension [Zero K] (b : Bool) (s : Spline V) (d : ℕ) :
    (extractDimension K b s d).out = s.extractDimension K d := by
  unfold extractDimension
  split
  · rfl
  · rename_i h; unfold Spline.extractDimension; rw [dif_neg h]; rfl

theorem out_transposeAndScale [Add K] [Mul K] (s : Spline V) (a b : V) :
    (transposeAndScale K s a b).out = s.transposeAndScale K a b := rfl

variable [LT K] [DecidableLT K]

theorem out_maximumCorner (s : Spline V) : (maximumCorner K s).out = s.maximumCorner K := by
  unfold maximumCorner
  split
  · rename_i h; unfold Spline.maximumCorner; rw [if_pos h]; rfl
  · rfl

theorem out_minimumCorner (s : Spline V) : (minimumCorner K s).out = s.minimumCorner K := by
  unfold minimumCorner
  split
  · rename_i h; unfold Spline.minimumCorner; rw [if_pos h]; rfl
  · rfl

theorem out_fitsIntoUnitCube [Zero K] [One K] (s : Spline V) : (fitsIntoUnitCube K s).out = s.fitsIntoUnitCube K := by
  unfold fitsIntoUnitCube Spline.fitsIntoUnitCube
  simp only [out_bind, out_maximumCorner, out_minimumCorner, out_pure]

theorem out_fitIntoUnitCube [One K] [Add K] [Mul K] [Div K] [Sub V] [Neg V] (s : Spline V) :
    (fitIntoUnitCube K s).out = s.fitIntoUnitCube K := by
  unfold fitIntoUnitCube Spline.fitIntoUnitCube
  simp only [out_bind, out_maximumCorner, out_minimumCorner, out_transposeAndScale]

end

section
variable [Zero K] [One K] [Add K] [Mul K] [Div K] [NatCast K]

theorem out_raisePowerAux (cfg : Cfg) (s : Spline K) (depth k : ℕ) : (raisePowerAux cfg s depth k).out = s.raisePowerAux cfg depth k := by
  induction depth generalizing k with
  | zero => rfl
  | succ n ih =>
    unfold raisePowerAux Spline.raisePowerAux
    simp only [ite_out, out_bind, out_lift, out_say, out_pure, ih, bind_ok]

theorem out_raisePower (cfg : Cfg) (s : Spline K) (k : ℕ) : (raisePower cfg s k).out = s.raisePower cfg k := out_raisePowerAux ..

theorem log_raisePowerAux (cfg : Cfg) (s : Spline K) (depth k : ℕ) (h : k < depth) :
    (raisePowerAux cfg s depth k).log = if k = 0 then [⟨.error, "Raising to 0 is inefficient. Please revisit"⟩] else [] := by
  induction depth generalizing k with
  | zero => omega
  | succ n ih =>
    unfold raisePowerAux
    by_cases h0 : k = 0
    · rw [if_pos h0, if_pos h0]; rfl
    · rw [if_neg h0, if_neg h0]
      by_cases h1 : k = 1
      · rw [if_pos h1]; rfl
      · rw [if_neg h1]
        have e := ih (k / 2) (by omega)
        rw [if_neg (by omega)] at e
        cases hx : (raisePowerAux cfg s n (k / 2)).out with
        | error err => rw [log_bind_error hx, e]
        | ok r =>
          rw [log_bind_ok hx, e]
          split
          · rfl
          · rw [log_lift_bind]; split <;> rfl

theorem log_raisePower (cfg : Cfg) (s : Spline K) (k : ℕ) :
    (raisePower cfg s k).log = if k = 0 then [⟨.error, "Raising to 0 is inefficient. Please revisit"⟩] else [] :=
  log_raisePowerAux cfg s _ _ (Nat.lt_succ_self k)

end

section
variable [Zero K] [One K] [Sub K] [LT K] [DecidableLT K] [Add V] [SMul K V]

theorem out_splitAt (tx : K → String) (s : Spline V) (z : K) (d : ℕ) : (splitAt tx s z d).out = s.splitAt z d := by
  unfold splitAt
  simp only [out_bind, out_say, bind_ok, ite_out, out_terminate, out_lift]
  split
  · rename_i h; unfold Spline.splitAt; rw [if_pos h]
  · rfl

theorem log_splitAt (tx : K → String) (s : Spline V) (z : K) (d : ℕ) :
    (splitAt tx s z d).log = Spec.splitting d (tx z) :: if 0 < z ∧ z < 1 then [] else [Spec.splitRefused (tx z)] := by
  unfold splitAt
  rw [log_say_bind]
  by_cases h : 0 < z ∧ z < 1
  · rw [if_neg (not_not_intro h), if_pos h]; rfl
  · rw [if_pos h, if_neg h]; rfl

theorem out_splitAtMany [Div K] (tx : K → String) (s : Spline V) (zs : List K) (d : ℕ) :
    (splitAtMany tx s zs d).out = s.splitAtMany zs d := by
  unfold splitAtMany Spline.splitAtMany
  simp only [ite_out, out_bind, out_lift, out_terminate, out_pure, out_loopFromS, out_splitAt]

end

section
variable [Zero K] [One K] [Add K] [Sub K] [Mul K] [Neg K] [Div K] [NatCast K]

theorem out_composeBases (cfg : Cfg) (ds : List ℕ) (n : ℕ) {e : ℕ → Said (Spline K)} {i : Spline K → Said (Spline K)}
    {e' : ℕ → M (Spline K)} {i' : Spline K → M (Spline K)} (he : ∀ d, (e d).out = e' d) (hi : ∀ s, (i s).out = i' s) :
    (composeBases cfg ds n e i).out = Spline.composeBases cfg ds n e' i' := by
  unfold composeBases Spline.composeBases
  simp only [out_loopS, out_bind, out_lift, he, hi]

theorem out_composeNumerator [Zero V] [Add V] [SMul K V] (cfg : Cfg) (s : Spline V) (ds : List ℕ) {e : ℕ → Said (Spline K)} {i : Spline K → Said (Spline K)}
    {e' : ℕ → M (Spline K)} {i' : Spline K → M (Spline K)} (he : ∀ d, (e d).out = e' d) (hi : ∀ s, (i s).out = i' s) :
    (composeNumerator cfg s ds e i).out = s.composeNumerator cfg ds e' i' := by
  unfold composeNumerator Spline.composeNumerator
  simp only [out_bind, out_lift, out_composeBases cfg _ _ he hi]

theorem out_composeNumeratorSensitivity (cfg : Cfg) (s : Spline V) (ds : List ℕ) {e : ℕ → Said (Spline K)} {i : Spline K → Said (Spline K)}
    {e' : ℕ → M (Spline K)} {i' : Spline K → M (Spline K)} (he : ∀ d, (e d).out = e' d) (hi : ∀ s, (i s).out = i' s) :
    (composeNumeratorSensitivity cfg s ds e i).out = s.composeNumeratorSensitivity cfg ds e' i' := by
  unfold composeNumeratorSensitivity Spline.composeNumeratorSensitivity
  simp only [out_bind, out_lift, out_composeBases cfg _ _ he hi]

variable [Coords K W] [LT K] [DecidableLT K]

theorem out_compose [Zero V] [Add V] [SMul K V] (cfg : Cfg) (b : Bool) (s : Spline V) (i : Spline W) :
    (compose K cfg b s i).out = s.compose K cfg i := by
  unfold compose Spline.compose
  simp only [out_bind, out_fitsIntoUnitCube, ite_out, out_terminate,
    out_composeNumerator cfg s i.degrees (fun d => out_extractDimension b i d) (fun e => out_lift (Spline.pointSub (1 : K) e))]

theorem out_composeSensitivity (cfg : Cfg) (b : Bool) (s : Spline V) (i : Spline W) :
    (composeSensitivity K cfg b s i).out = s.composeSensitivity K cfg i := by
  unfold composeSensitivity Spline.composeSensitivity
  simp only [out_bind, out_fitsIntoUnitCube, ite_out, out_terminate,
    out_composeNumeratorSensitivity cfg s i.degrees (fun d => out_extractDimension b i d) (fun e => out_lift (Spline.pointSub (1 : K) e))]

end

/-! ### rational splines -/

section
variable [Zero K] [One K] [Add K] [Sub K] [Mul K] [Div K] [NatCast K] [Zero V] [Add V] [SMul K V]

theorem out_rOrderElevate (r : RSpline K V) (d : ℕ) : (rOrderElevate r d).out = r.orderElevate d := by
  unfold rOrderElevate RSpline.orderElevate
  simp only [out_bind, out_lift, out_orderElevate, out_pure]

theorem out_rSplitAt [LT K] [DecidableLT K] (tx : K → String) (r : RSpline K V) (z : K) (d : ℕ) :
    (rSplitAt tx r z d).out = r.splitAt z d := by
  unfold rSplitAt RSpline.splitAt
  simp only [out_bind, out_lift, out_splitAt, out_pure]

theorem out_rSplitAtMany [LT K] [DecidableLT K] (tx : K → String) (r : RSpline K V) (zs : List K) (d : ℕ) :
    (rSplitAtMany tx r zs d).out = r.splitAtMany zs d := by
  unfold rSplitAtMany RSpline.splitAtMany
  simp only [ite_out, out_bind, out_lift, out_terminate, out_pure, out_loopFromS, out_rSplitAt]

variable [BEq K]

theorem out_rAddOp (cfg : Cfg) (r q : RSpline K V) : (rAddOp cfg r q).out = r.addOp cfg q := by
  unfold rAddOp RSpline.addOp
  simp only [ite_out, out_bind, out_lift, out_addOp]

theorem out_rAddAssign (cfg : Cfg) (r q : RSpline K V) : (rAddAssign cfg r q).out = r.addAssign cfg q := by
  unfold rAddAssign RSpline.addAssign
  simp only [ite_out, out_bind, out_lift, out_addAssign, out_pure]

theorem out_rSubOp [Sub V] (cfg : Cfg) (r q : RSpline K V) : (rSubOp cfg r q).out = r.subOp cfg q := by
  unfold rSubOp RSpline.subOp
  simp only [ite_out, out_bind, out_lift, out_subOp]

theorem out_rSubAssign [Sub V] (cfg : Cfg) (r q : RSpline K V) : (rSubAssign cfg r q).out = r.subAssign cfg q := by
  unfold rSubAssign RSpline.subAssign
  simp only [ite_out, out_bind, out_lift, out_subAssign, out_pure]

end

section
variable [Zero K] [One K] [Add K] [Sub K] [Mul K] [Neg K] [Div K] [NatCast K] [Zero V] [Add V] [Sub V] [SMul K V]

theorem out_rDerivativeStep (cfg : Cfg) (r : RSpline K V) (d : ℕ) : (rDerivativeStep cfg r d).out = r.derivativeStep cfg d := by
  unfold rDerivativeStep RSpline.derivativeStep
  simp only [out_bind, out_lift, out_subOp, out_orderElevate]
  cases ho : wr (List.replicate r.dim 0) d 1 with
  | error e => rfl
  | ok o =>
    have hne : o ≠ [] := by
      obtain ⟨h1, rfl⟩ := wr_eq ho
      intro hc
      rw [List.set_eq_nil_iff] at hc
      rw [hc] at h1; simp at h1
    simp only [bind_ok, out_derivativeSpline (K := K) cfg r.num hne, out_derivativeSpline (K := K) cfg r.wt hne]

theorem out_rDerivativeSpline (cfg : Cfg) (r : RSpline K V) (o : List ℕ) : (rDerivativeSpline cfg r o).out = r.derivativeSpline cfg o := by
  unfold rDerivativeSpline RSpline.derivativeSpline
  simp only [out_loopS, out_bind, out_lift, out_rDerivativeStep]

end

section
variable [Coords K V]

theorem out_rExtractDimension [Zero K] (b : Bool) (r : RSpline K V) (d : ℕ) : (rExtractDimension b r d).out = r.extractDimension d :=
  out_extractDimension b r.num d

variable [Zero K] [BEq K] [ScalarDiv K V] [LT K] [DecidableLT K]

theorem out_rMinimumCorner (r : RSpline K V) : (rMinimumCorner r).out = r.minimumCorner := by
  unfold rMinimumCorner
  split
  · rename_i h; unfold RSpline.minimumCorner RSpline.corner; rw [if_pos h]; rfl
  · rfl

theorem out_rMaximumCorner (r : RSpline K V) : (rMaximumCorner r).out = r.maximumCorner := by
  unfold rMaximumCorner
  split
  · rename_i h; unfold RSpline.maximumCorner RSpline.corner; rw [if_pos h]; rfl
  · rfl

theorem out_rFitsIntoUnitCube [One K] (r : RSpline K V) : (rFitsIntoUnitCube r).out = r.fitsIntoUnitCube := by
  unfold rFitsIntoUnitCube RSpline.fitsIntoUnitCube
  simp only [out_bind, out_rMaximumCorner, out_rMinimumCorner, out_pure]

end

section
variable [Zero K] [One K] [Add K] [Sub K] [Mul K] [Neg K] [Div K] [NatCast K] [Zero V] [Add V] [SMul K V] [Coords K W]

theorem out_composeNumeratorRational (cfg : Cfg) (b : Bool) (s : Spline V) (i : RSpline K W) :
    (composeNumeratorRational cfg b s i).out = s.composeNumeratorRational cfg i :=
  out_composeNumerator cfg s i.num.degrees (fun d => out_rExtractDimension b i d) (fun e => out_subOp cfg i.wt e)

omit [Zero V] [Add V] [SMul K V] in
theorem out_composeNumeratorSensitivityRational (cfg : Cfg) (b : Bool) (s : Spline V) (i : RSpline K W) :
    (composeNumeratorSensitivityRational cfg b s i).out = s.composeNumeratorSensitivityRational cfg i :=
  out_composeNumeratorSensitivity cfg s i.num.degrees (fun d => out_rExtractDimension b i d) (fun e => out_subOp cfg i.wt e)

variable [BEq K] [ScalarDiv K W] [LT K] [DecidableLT K]

theorem out_composeRational (cfg : Cfg) (b : Bool) (s : Spline V) (i : RSpline K W) :
    (composeRational cfg b s i).out = s.composeRational cfg i := by
  unfold composeRational Spline.composeRational composeDenominator Spline.composeDenominator
  simp only [out_bind, out_rFitsIntoUnitCube, ite_out, out_terminate, out_composeNumeratorRational, out_raisePower, out_lift]

omit [Zero V] [Add V] [SMul K V] in
theorem out_composeSensitivityRational (cfg : Cfg) (b : Bool) (s : Spline V) (i : RSpline K W) :
    (composeSensitivityRational cfg b s i).out = s.composeSensitivityRational cfg i := by
  unfold composeSensitivityRational Spline.composeSensitivityRational composeDenominator Spline.composeDenominator
  simp only [out_bind, out_rFitsIntoUnitCube, ite_out, out_terminate, out_composeNumeratorSensitivityRational, out_raisePower, out_lift]

omit [BEq K] [ScalarDiv K W] in
theorem out_rCompose (cfg : Cfg) (b : Bool) (r : RSpline K V) (i : Spline W) : (rCompose cfg b r i).out = r.compose cfg i := by
  unfold rCompose RSpline.compose
  simp only [out_bind, out_compose, out_lift]

omit [BEq K] [ScalarDiv K W] [LT K] [DecidableLT K] in
theorem out_rComposeRational (cfg : Cfg) (b : Bool) (r : RSpline K V) (i : RSpline K W) :
    (rComposeRational cfg b r i).out = r.composeRational cfg i := by
  unfold rComposeRational RSpline.composeRational
  simp only [out_bind, out_composeNumeratorRational, out_lift]

omit [Zero V] [Add V] [SMul K V] [BEq K] [ScalarDiv K W] in
theorem out_rComposeSensitivity (cfg : Cfg) (b : Bool) (r : RSpline K V) (i : Spline W) :
    (rComposeSensitivity cfg b r i).out = r.composeSensitivity cfg i := by
  unfold rComposeSensitivity RSpline.composeSensitivity
  simp only [out_bind, out_compose, out_composeSensitivity, out_lift]

omit [Zero V] [Add V] [SMul K V] [BEq K] [ScalarDiv K W] [LT K] [DecidableLT K] in
theorem out_rComposeSensitivityRational (cfg : Cfg) (b : Bool) (r : RSpline K V) (i : RSpline K W) :
    (rComposeSensitivityRational cfg b r i).out = r.composeSensitivityRational cfg i := by
  unfold rComposeSensitivityRational RSpline.composeSensitivityRational
  simp only [out_bind, out_composeNumeratorRational, out_composeNumeratorSensitivityRational, out_lift]

end

end Messages
end Bezman
