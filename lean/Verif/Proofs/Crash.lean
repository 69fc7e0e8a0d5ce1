import Verif.Spec.Crash
import Verif.Proofs.History

/-! # Calls that run out of memory: lemmas -/

namespace Bezman
open Spec Crash
variable {σ τ α β : Type}

namespace Crash

theorem bind_run (x : Crash σ α) (f : α → Crash σ β) (s : σ) (n : ℕ) :
    (x >>= f) s n = (x s n >>= fun r => match r with
      | (s, none) => .ok (s, none)
      | (s, some (a, n)) => f a s n) := rfl

/-- for every object: either crashes (with fewer than `N` units) or behaves like `f` -/
def Sim (x : Crash σ α) (f : σ → M (σ × α)) : Prop :=
  ∀ s, ∃ N, ∀ n, (n < N → ∃ s', x s n = .ok (s', none)) ∧ (N ≤ n → x s n = (f s).map fun r => (r.1, some (r.2, n - N)))

theorem Sim.of_eq {x : Crash σ α} {f : σ → M (σ × α)} (h : ∀ s n, x s n = (f s).map fun r => (r.1, some (r.2, n))) : Sim x f :=
  fun s => ⟨0, fun n => ⟨fun h => by omega, fun _ => h s n⟩⟩

theorem Sim.ret (a : α) : Sim (σ := σ) (ret a) fun s => .ok (s, a) := .of_eq fun _ _ => rfl
theorem Sim.obj : Sim (σ := σ) obj fun s => .ok (s, s) := .of_eq fun _ _ => rfl
theorem Sim.put (s' : σ) : Sim (put s') fun _ => .ok (s', ()) := .of_eq fun _ _ => rfl
theorem Sim.lift (x : M α) : Sim (σ := σ) (lift x) fun s => x.map fun a => (s, a) := .of_eq fun s n => by
  cases x <;> rfl

theorem Sim.point : Sim (σ := σ) point fun s => .ok (s, ()) := by
  refine fun s => ⟨1, fun n => ⟨fun h => ⟨s, ?_⟩, fun h => ?_⟩⟩
  · obtain rfl : n = 0 := by omega
    rfl
  · obtain ⟨n, rfl⟩ := Nat.exists_eq_add_of_le' h
    rfl

theorem Sim.pointIf (c : Prop) [Decidable c] : Sim (σ := σ) (pointIf c) fun s => .ok (s, ()) := by
  unfold Crash.pointIf
  split
  · exact .point
  · exact .ret ()

theorem Sim.bind {x : Crash σ α} {f : α → Crash σ β} {y : σ → M (σ × α)} {z : α → σ → M (σ × β)} (hx : Sim x y)
    (hf : ∀ a, Sim (f a) (z a)) : Sim (x >>= f) fun s => y s >>= fun r => z r.2 r.1 := by
  intro s
  obtain ⟨N, hN⟩ := hx s
  cases hy : y s with
  | error e =>
    rw [hy] at hN
    refine ⟨N, fun n => ⟨fun h => ?_, fun h => ?_⟩⟩
    · obtain ⟨s', hs'⟩ := (hN n).1 h
      exact ⟨s', by rw [bind_run, hs']; rfl⟩
    · rw [bind_run, (hN n).2 h]; simp only [hy]; rfl
  | ok r =>
    rw [hy] at hN
    obtain ⟨L, hL⟩ := hf r.2 r.1
    refine ⟨N + L, fun n => ⟨fun h => ?_, fun h => ?_⟩⟩
    · by_cases hn : n < N
      · obtain ⟨s', hs'⟩ := (hN n).1 hn
        exact ⟨s', by rw [bind_run, hs']; rfl⟩
      · obtain ⟨s', hs'⟩ := (hL (n - N)).1 (by omega)
        exact ⟨s', by rw [bind_run, (hN n).2 (by omega)]; exact hs'⟩
    · rw [bind_run, (hN n).2 (by omega)]
      show f r.2 r.1 (n - N) = _
      rw [(hL (n - N)).2 (by omega), Nat.sub_sub]
      simp only [hy]
      rfl

theorem Sim.ite {c : Prop} [Decidable c] {x y : Crash σ α} {f g : σ → M (σ × α)} (hx : Sim x f) (hy : Sim y g) :
    Sim (if c then x else y) fun s => if c then f s else g s := by
  split
  · exact hx
  · exact hy

theorem Sim.congr {x : Crash σ α} {f g : σ → M (σ × α)} (h : Sim x f) (e : ∀ s, f s = g s) : Sim x g := (funext e : f = g) ▸ h

/-- a call without result that behaves like `f` -/
def LikeM (x : Crash σ Unit) (f : σ → M σ) : Prop := Sim x fun s => (f s).map fun s' => (s', ())

theorem Sim.local' {x : Crash τ Unit} {f : τ → M τ} (hx : LikeM x f) (t : τ) : Sim (σ := σ) (local' x t) fun s => (f t).map fun t => (s, t) := by
  intro s
  obtain ⟨N, hN⟩ := hx t
  refine ⟨N, fun n => ⟨fun h => ⟨s, ?_⟩, fun h => ?_⟩⟩
  · obtain ⟨s', hs'⟩ := (hN n).1 h
    unfold Crash.local'
    rw [hs']; rfl
  · unfold Crash.local'
    rw [(hN n).2 h]
    beta_reduce
    cases f t <;> rfl

theorem LikeM.forC {f : ℕ → Crash σ Unit} {g : ℕ → σ → M σ} (h : ∀ k, LikeM (f k) (g k)) (n : ℕ) : LikeM (forC n f) (loop n g) := by
  induction n with
  | zero => exact .ret ()
  | succ n ih =>
    refine (Sim.bind ih fun _ => h n).congr fun s => ?_
    rw [loop_succ]
    cases loop n g s <;> rfl

theorem LikeM.whileC {c : σ → M Bool} {f : Crash σ Unit} {g : σ → M σ} (h : LikeM f g) (fuel : ℕ) :
    LikeM (whileC fuel c f) (whileM fuel c g) := by
  induction fuel with
  | zero => exact (Sim.lift (α := Unit) (.error .outOfFuel)).congr fun s => rfl
  | succ fuel ih =>
    refine (Sim.bind Sim.obj fun s => Sim.bind (Sim.lift (c s)) fun b => Sim.ite (Sim.bind h fun _ => ih) (.ret ())).congr fun s => ?_
    rw [whileM]
    cases hc : c s with
    | error e => simp [hc, Except.map]
    | ok b =>
      cases b
      · simp [hc, Except.map]
      · cases hg : g s <;> simp [hc, hg, Except.map]

/-- from `s`, the call returns with `Q`, or is left by the exception with `F` -/
def Ends (x : Crash σ α) (s : σ) (Q : α → σ → Prop) (F : σ → Prop) : Prop :=
  (∀ n s' a n', x s n = .ok (s', some (a, n')) → Q a s') ∧ ∀ n s', x s n = .ok (s', none) → F s'

theorem Ends.mono {x : Crash σ α} {s : σ} {Q Q' : α → σ → Prop} {F F' : σ → Prop} (h : Ends x s Q F) (hQ : ∀ a s', Q a s' → Q' a s')
    (hF : ∀ s', F s' → F' s') : Ends x s Q' F' :=
  ⟨fun n s' a n' e => hQ _ _ (h.1 n s' a n' e), fun n s' e => hF _ (h.2 n s' e)⟩

theorem Ends.ret (a : α) (s : σ) {F : σ → Prop} : Ends (ret a) s (fun b s' => b = a ∧ s' = s) F :=
  ⟨fun n s' b n' h => by cases h; exact ⟨rfl, rfl⟩, fun n s' h => by cases h⟩

theorem Ends.obj (s : σ) {F : σ → Prop} : Ends obj s (fun t s' => t = s ∧ s' = s) F :=
  ⟨fun n s' b n' h => by cases h; exact ⟨rfl, rfl⟩, fun n s' h => by cases h⟩

theorem Ends.put (t s : σ) {F : σ → Prop} : Ends (put t) s (fun _ s' => s' = t) F :=
  ⟨fun n s' b n' h => by cases h; rfl, fun n s' h => by cases h⟩

theorem Ends.lift (x : M α) (s : σ) {F : σ → Prop} : Ends (lift x) s (fun a s' => x = .ok a ∧ s' = s) F := by
  unfold Ends Crash.lift
  cases x with
  | error e => exact ⟨fun n s' b n' h => (by cases h), fun n s' h => (by cases h)⟩
  | ok a => exact ⟨fun n s' b n' h => by cases h; exact ⟨rfl, rfl⟩, fun n s' h => by cases h⟩

theorem Ends.point (s : σ) : Ends point s (fun _ s' => s' = s) (fun s' => s' = s) :=
  ⟨fun n s' a n' h => by cases n <;> cases h; rfl, fun n s' h => by cases n <;> cases h; rfl⟩

theorem Ends.pointIf (c : Prop) [Decidable c] (s : σ) : Ends (pointIf c) s (fun _ s' => s' = s) (fun s' => c ∧ s' = s) := by
  unfold Crash.pointIf
  split
  · next h => exact (Ends.point s).mono (fun _ _ h => h) fun _ e => ⟨h, e⟩
  · exact (Ends.ret () s (F := _)).mono (fun _ _ h => h.2) fun _ h => h

theorem Ends.bind {x : Crash σ α} {f : α → Crash σ β} {s : σ} {Q : α → σ → Prop} {R : β → σ → Prop} {F : σ → Prop} (hx : Ends x s Q F)
    (hf : ∀ a t, Q a t → Ends (f a) t R F) : Ends (x >>= f) s R F := by
  constructor
  · intro n s' b n' h
    rw [bind_run] at h
    obtain ⟨⟨t, o⟩, h1, h2⟩ := bind_eq_ok.mp h
    cases o with
    | none => cases h2
    | some r => exact (hf _ _ (hx.1 n t r.1 r.2 h1)).1 _ _ _ _ h2
  · intro n s' h
    rw [bind_run] at h
    obtain ⟨⟨t, o⟩, h1, h2⟩ := bind_eq_ok.mp h
    cases o with
    | none => cases h2; exact hx.2 _ _ h1
    | some r => exact (hf _ _ (hx.1 n t r.1 r.2 h1)).2 _ _ h2

theorem Ends.local' (x : Crash τ Unit) (t : τ) (s : σ) : Ends (local' x t) s (fun _ s' => s' = s) (fun s' => s' = s) := by
  constructor
  · intro n s' b n' h
    obtain ⟨⟨t', o⟩, h1, h2⟩ := bind_eq_ok.mp h
    cases o <;> cases h2; rfl
  · intro n s' h
    obtain ⟨⟨t', o⟩, h1, h2⟩ := bind_eq_ok.mp h
    cases o <;> cases h2; rfl

theorem Ends.forC {n : ℕ} {f : ℕ → Crash σ Unit} {I F : σ → Prop} {s : σ} (hs : I s)
    (h : ∀ k, k < n → ∀ t, I t → Ends (f k) t (fun _ => I) F) : Ends (forC n f) s (fun _ => I) F := by
  induction n with
  | zero => exact (Ends.ret () s (F := F)).mono (fun _ _ h => h.2 ▸ hs) fun _ h => h
  | succ n ih => exact (ih fun k hk => h k (by omega)).bind fun _ t ht => h n (by omega) t ht

theorem Ends.whileC {c : σ → M Bool} {f : Crash σ Unit} {I F : σ → Prop} (fuel : ℕ) {s : σ} (hs : I s)
    (h : ∀ t, I t → c t = .ok true → Ends f t (fun _ => I) F) : Ends (whileC fuel c f) s (fun _ => I) F := by
  induction fuel generalizing s with
  | zero => exact (Ends.lift (α := Unit) (.error .outOfFuel) s (F := F)).mono (fun _ _ h => by cases h.1) fun _ h => h
  | succ fuel ih =>
    refine (Ends.obj s).bind fun t s' hts => (Ends.lift (c t) s').bind fun b u hbu => ?_
    obtain ⟨rfl, rfl⟩ := hts
    obtain ⟨hb, rfl⟩ := hbu
    split
    · next hbt => exact (h _ hs (by rw [hb, hbt])).bind fun _ v hv => ih hv
    · exact (Ends.ret () _ (F := F)).mono (fun _ _ h => h.2 ▸ hs) fun _ h => h

end Crash

open Crash

namespace Spline
variable {K V : Type}

section
variable [One K] [Sub K] [Mul K] [Div K] [NatCast K] [Zero V] [Add V] [SMul K V]

theorem orderElevateC_like (d : ℕ) : LikeM (orderElevateC K d) fun s : Spline V => orderElevate K s d := by
  refine (Sim.bind .obj fun s => .bind (.lift _) fun p => .bind (.put _) fun _ => .bind .point fun _ => .bind (.lift _) fun r =>
    .bind (.put _) fun _ => .point).congr fun s => ?_
  cases hd : rd s.degrees d with
  | error e => unfold orderElevate; simp [hd, Except.map]
  | ok p => cases he : orderElevate K s d <;> simp [hd, he, Except.map]

omit [Add V] in
theorem updateDegreesC_like (nd : List ℕ) : LikeM (updateDegreesC nd) fun s : Spline V => s.updateDegrees nd := by
  refine (Sim.bind .obj fun s => .bind (.put _) fun p => .bind (.pointIf _) fun _ => .bind (.lift _) fun r => .put _).congr fun s => ?_
  cases he : s.updateDegrees nd <;> simp [he, Except.map]

theorem elevateToC_like (cfg : Cfg) (target : List ℕ) : LikeM (elevateToC K cfg target) fun s : Spline V => elevateTo K cfg s target :=
  (Sim.bind .obj fun s => LikeM.forC (fun d => LikeM.whileC (orderElevateC_like d) cfg.fuel) _).congr fun _ => rfl

/-- the common body of `addAssign` and `subAssign` -/
theorem combineAssignC_like (cfg : Cfg) (f : V → V → V) (rhs : Spline V) : LikeM (combineAssignC K cfg f rhs) fun s => (do
    let s ← elevateTo K cfg s rhs.degrees
    let rhs ← elevateTo K cfg rhs s.degrees
    let cps ← zipCps s.ncp f s.cps rhs.cps
    pure { s with cps := cps }) := by
  refine (Sim.bind (elevateToC_like cfg rhs.degrees) fun _ => .bind .obj fun s => .bind (.local' (elevateToC_like cfg _) rhs) fun _ =>
    .bind (.lift _) fun _ => .put _).congr fun s => ?_
  cases hs : elevateTo K cfg s rhs.degrees with
  | error e => simp [hs, Except.map]
  | ok t =>
    cases hr : elevateTo K cfg rhs t.degrees with
    | error e => simp [Except.map, hs, hr]
    | ok q =>
      cases hz : zipCps t.ncp f t.cps q.cps <;> simp [Except.map, hs, hr, hz]

end

theorem assignC_like (rhs : Spline V) : LikeM (assignC rhs) fun _ => pure rhs :=
  (Sim.bind .obj fun s => .bind (.put _) fun p => .bind (.pointIf _) fun _ => .put _).congr fun s => rfl

section
variable [One K] [Sub K] [Mul K] [Div K] [NatCast K] [Zero V] [Add V] [SMul K V]

theorem orderElevateC_ends (s : Spline V) (d : ℕ) : Ends (orderElevateC K d) s (fun _ t => orderElevate K s d = .ok t)
    (fun s' => (∃ p, s.degrees[d]? = some p ∧ s' = { s with ncp := s.ncp / (p + 1) * (p + 2) }) ∨ orderElevate K s d = .ok s') := by
  refine (Ends.obj s).bind fun t s1 h1 => (Ends.lift _ s1).bind fun p s2 h2 => (Ends.put _ s2).bind fun _ s3 h3 => ?_
  obtain ⟨rfl, rfl⟩ := h1
  obtain ⟨hp, rfl⟩ := h2
  subst h3
  refine ((Ends.point _).mono (fun _ _ h => h) fun s' h => .inl ⟨p, rd_ok_iff.mp hp, h⟩).bind fun _ s4 h4 =>
    (Ends.lift _ s4).bind fun r s5 h5 => (Ends.put _ s5).bind fun _ s6 h6 => ?_
  obtain ⟨hr, _⟩ := h5
  subst h6
  exact (Ends.point _).mono (fun _ _ h => h ▸ hr) fun s' h => .inr (h ▸ hr)

omit [Add V] in
theorem updateDegreesC_ends (s : Spline V) (nd : List ℕ) : Ends (updateDegreesC nd) s (fun _ t => s.updateDegrees nd = .ok t)
    (fun s' => s.cps.length < countCps nd ∧ s' = { s with degrees := nd, ncp := countCps nd }) := by
  refine (Ends.obj s).bind fun t s1 h1 => (Ends.put _ s1).bind fun _ s2 h2 => ?_
  obtain ⟨rfl, rfl⟩ := h1
  subst h2
  refine (Ends.pointIf _ _).bind fun _ s3 h3 => (Ends.lift _ s3).bind fun r s4 h4 => ?_
  obtain ⟨hr, rfl⟩ := h4
  exact (Ends.put _ _).mono (fun _ _ h => h ▸ hr) fun _ h => h

theorem elevateToC_ends (cfg : Cfg) (target : List ℕ) (s : Spline V) {I : Spline V → Prop} (hs : I s)
    (hI : ∀ t d p q r, I t → d < s.dim → t.degrees[d]? = some p → target[d]? = some q → p < q → orderElevate K t d = .ok r → I r) :
    Ends (elevateToC K cfg target) s (fun _ => I) (fun s' => ∃ t, I t ∧ (s' = t ∨ Interrupted t s')) := by
  refine (Ends.obj s).bind fun t s1 h1 => ?_
  obtain ⟨rfl, rfl⟩ := h1
  refine Ends.forC hs fun d hd t ht => Ends.whileC _ ht fun t ht hc => ?_
  obtain ⟨q, hq, hc⟩ := bind_eq_ok.mp hc
  obtain ⟨p, hp, hc⟩ := bind_eq_ok.mp hc
  rw [rd_ok_iff] at hp hq
  have hpq : p < q := by simpa using hc
  refine (orderElevateC_ends t d).mono (fun _ r hr => hI t d p q r ht hd hp hq hpq hr) fun s' h => ?_
  rcases h with ⟨p', hp', rfl⟩ | hr
  · exact ⟨t, ht, .inr ⟨d, p', hp', rfl⟩⟩
  · exact ⟨s', hI t d p q s' ht hd hp hq hpq hr, .inl rfl⟩

theorem combineAssignC_ends (cfg : Cfg) (f : V → V → V) (rhs s : Spline V) {I : Spline V → Prop} (hs : I s)
    (hI : ∀ t d p q r, I t → d < s.dim → t.degrees[d]? = some p → rhs.degrees[d]? = some q → p < q → orderElevate K t d = .ok r → I r) :
    Ends (combineAssignC K cfg f rhs) s (fun _ _ => True) (fun s' => ∃ t, I t ∧ (s' = t ∨ Interrupted t s')) := by
  refine (elevateToC_ends cfg rhs.degrees s hs hI).bind fun _ t ht => (Ends.obj t).bind fun t' s1 h1 => ?_
  obtain ⟨rfl, rfl⟩ := h1
  refine ((Ends.local' _ _ _).mono (fun _ _ h => h) fun s' h => ⟨_, ht, .inl h⟩).bind fun r s2 h2 => ?_
  exact (Ends.lift _ s2).bind fun c s3 _ => (Ends.put _ s3).mono (fun _ _ _ => trivial) fun _ h => h

theorem elevateToC_idle (cfg : Cfg) (target : List ℕ) (s : Spline V)
    (h : ∀ d p q : ℕ, s.degrees[d]? = some p → target[d]? = some q → q ≤ p) :
    Ends (elevateToC K cfg target) s (fun _ t => t = s) (fun _ => False) := by
  refine (Ends.obj s).bind fun t s1 h1 => ?_
  obtain ⟨rfl, rfl⟩ := h1
  refine Ends.forC rfl fun d hd t ht => Ends.whileC _ ht fun u hu hc => ?_
  subst hu
  obtain ⟨q, hq, hc⟩ := bind_eq_ok.mp hc
  obtain ⟨p, hp, hc⟩ := bind_eq_ok.mp hc
  rw [rd_ok_iff] at hp hq
  have hpq : p < q := by simpa using hc
  have := h d p q hp hq
  omega

theorem combineAssignC_idle (cfg : Cfg) (f : V → V → V) (rhs s : Spline V)
    (h : ∀ d p q : ℕ, s.degrees[d]? = some p → rhs.degrees[d]? = some q → q ≤ p) :
    Ends (combineAssignC K cfg f rhs) s (fun _ _ => True) (fun s' => s' = s) := by
  refine ((elevateToC_idle cfg rhs.degrees s h).mono (fun _ _ h => h) fun _ h => h.elim).bind fun _ t ht => (Ends.obj t).bind fun t' s1 h1 => ?_
  obtain ⟨rfl, rfl⟩ := h1
  subst ht
  refine (Ends.local' _ _ _).bind fun r s2 h2 => ?_
  exact (Ends.lift _ s2).bind fun c s3 _ => (Ends.put _ s3).mono (fun _ _ _ => trivial) fun _ h => h

end

theorem assignC_ends (rhs s : Spline V) : Ends (assignC rhs) s (fun _ t => t = rhs)
    (fun s' => s.cps.length < rhs.cps.length ∧ s' = { rhs with cps := s.cps }) := by
  refine (Ends.obj s).bind fun t s1 h1 => (Ends.put _ s1).bind fun _ s2 h2 => ?_
  obtain ⟨rfl, rfl⟩ := h1
  subst h2
  exact (Ends.pointIf _ _).bind fun _ s3 h3 => Ends.put _ _

end Spline

namespace Crash

/-- read the object, compute, write the object -/
theorem LikeM.run (f : σ → M σ) : LikeM (do let s ← obj; let r ← lift (f s); put r) f := by
  refine (Sim.bind .obj fun s => .bind (.lift _) fun r => .put _).congr fun s => ?_
  cases he : f s <;> simp [he, Except.map]

theorem LikeM.point_then {x : Crash σ Unit} {f : σ → M σ} (h : LikeM x f) : LikeM (do point; x) f :=
  (Sim.bind .point fun _ => h).congr fun _ => rfl

theorem LikeM.runsLike {x : Crash σ Unit} {f : σ → M σ} (h : LikeM x f) (s : σ) : ∃ N, RunsLike x f s N := by
  obtain ⟨N, hN⟩ := h s
  refine ⟨N, fun n => ⟨(hN n).1, fun hn => ?_⟩⟩
  rw [(hN n).2 hn]
  beta_reduce
  cases f s <;> rfl

end Crash

section
variable {K V : Type} [Coords K V] [One K] [Add K] [Sub K] [Mul K] [Div K] [NatCast K] [LT K] [DecidableLT K]
  [Zero V] [Add V] [Sub V] [Neg V] [SMul K V]

theorem Mutator.applyC_like (cfg : Cfg) (m : Mutator K V) : LikeM (m.applyC cfg) fun s => m.apply cfg s := by
  cases m with
  | updateDegrees nd => exact Spline.updateDegreesC_like nd
  | orderElevate d => exact Spline.orderElevateC_like d
  | addAssign rhs => exact (Spline.combineAssignC_like cfg _ rhs).point_then
  | subAssign rhs => exact (Spline.combineAssignC_like cfg _ rhs).point_then
  | transposeAndScale t c => exact (LikeM.run fun s => Spline.transposeAndScale K s t c).point_then
  | fitIntoUnitCube =>
    refine (Sim.bind .obj fun s => .bind .point fun _ => .bind (.lift _) fun r => .put _).congr fun s => ?_
    show _ = ((Spline.fitIntoUnitCube K s).map _)
    cases he : Spline.fitIntoUnitCube K s <;> simp [he, Except.map]
  | _ => exact LikeM.run _

end

namespace RSpline
variable {K V : Type}

theorem onNum_like {x : Crash (Spline V) Unit} {f : Spline V → M (Spline V)} (h : LikeM x f) :
    LikeM (onNum x) fun r : RSpline K V => (do let n ← f r.num; pure ⟨n, r.wt⟩) := by
  intro r
  obtain ⟨N, hN⟩ := h r.num
  refine ⟨N, fun n => ⟨fun h => ?_, fun h => ?_⟩⟩
  · obtain ⟨s', hs'⟩ := (hN n).1 h
    exact ⟨⟨s', r.wt⟩, by unfold onNum; rw [hs']; rfl⟩
  · unfold onNum
    rw [(hN n).2 h]
    beta_reduce
    cases f r.num <;> rfl

theorem onWt_like {x : Crash (Spline K) Unit} {f : Spline K → M (Spline K)} (h : LikeM x f) :
    LikeM (onWt x) fun r : RSpline K V => (do let w ← f r.wt; pure ⟨r.num, w⟩) := by
  intro r
  obtain ⟨N, hN⟩ := h r.wt
  refine ⟨N, fun n => ⟨fun h => ?_, fun h => ?_⟩⟩
  · obtain ⟨s', hs'⟩ := (hN n).1 h
    exact ⟨⟨r.num, s'⟩, by unfold onWt; rw [hs']; rfl⟩
  · unfold onWt
    rw [(hN n).2 h]
    beta_reduce
    cases f r.wt <;> rfl

theorem assignC_like (rhs : RSpline K V) : LikeM (assignC rhs) fun _ => pure rhs :=
  (Sim.bind (onNum_like (Spline.assignC_like _)) fun _ => onWt_like (Spline.assignC_like _)).congr fun s => rfl

variable [Zero K] [One K] [Add K] [Sub K] [Mul K] [Div K] [NatCast K] [Zero V] [Add V] [SMul K V]

omit [One K] [Add K] [Sub K] [Mul K] [Div K] [NatCast K] [Add V] [SMul K V] in
theorem updateDegreesC_like (nd : List ℕ) : LikeM (updateDegreesC nd) fun r : RSpline K V => r.updateDegrees nd := by
  refine (Sim.bind (onWt_like (Spline.updateDegreesC_like _)) fun _ => .bind (onNum_like (Spline.updateDegreesC_like _)) fun _ =>
    .bind .obj fun _ => .lift _).congr fun r => ?_
  unfold updateDegrees
  cases hw : r.wt.updateDegrees nd with
  | error e => simp [Except.map, hw]
  | ok w =>
    cases hn : r.num.updateDegrees nd with
    | error e => simp [Except.map, hw, hn]
    | ok q => cases hc : compatible (⟨q, w⟩ : RSpline K V) <;> simp [Except.map, assertM, hw, hn, hc]

theorem orderElevateC_like (d : ℕ) : LikeM (orderElevateC d) fun r : RSpline K V => r.orderElevate d := by
  refine (Sim.bind (onNum_like (Spline.orderElevateC_like _)) fun _ => .bind (onWt_like (Spline.orderElevateC_like _)) fun _ =>
    .bind .obj fun _ => .lift _).congr fun r => ?_
  unfold orderElevate
  cases hw : Spline.orderElevate K r.num d with
  | error e => simp [Except.map, hw]
  | ok q =>
    cases hn : Spline.orderElevate K r.wt d with
    | error e => simp [Except.map, hw, hn]
    | ok w => cases hc : compatible (⟨q, w⟩ : RSpline K V) <;> simp [Except.map, assertM, hw, hn, hc]

theorem combineAssignC_like [BEq K] (cfg : Cfg) (f : V → V → V) (g : Spline V → Spline V → M (Spline V))
    (hg : ∀ rhs, LikeM (Spline.combineAssignC K cfg f rhs) fun s => g s rhs) (rhs : RSpline K V) :
    LikeM (combineAssignC cfg f rhs) fun r => (do
      if r.wt.eqOp rhs.wt then do
        let num ← g r.num rhs.num
        pure ⟨num, r.wt⟩
      else do
        let a ← mulWeight' cfg r.num rhs.wt
        let b ← mulWeight cfg r.wt rhs.num
        let num ← g a b
        let wt ← Spline.mulScalar cfg r.wt rhs.wt
        assertM (compatible ⟨num, wt⟩)
        pure ⟨num, wt⟩) := by
  refine (Sim.bind .obj fun r => .ite (.bind .point fun _ => onNum_like (hg _)) (.bind .point fun _ => .bind (.lift _) fun _ =>
    .bind (.put _) fun _ => .bind .point fun _ => .bind (.lift _) fun _ => .bind (onNum_like (hg _)) fun _ => .bind .point fun _ =>
    .bind .obj fun _ => .bind (.lift _) fun _ => .bind (.put _) fun _ => .bind .obj fun _ => .lift _)).congr fun r => ?_
  show (if r.wt.eqOp rhs.wt then _ else _) = Except.map _ (if r.wt.eqOp rhs.wt then _ else _)
  split
  · rfl
  · cases ha : mulWeight' cfg r.num rhs.wt with
    | error e => simp [Except.map, ha]
    | ok a =>
      cases hb : mulWeight cfg r.wt rhs.num with
      | error e => simp [Except.map, ha, hb]
      | ok b =>
        cases hc : g a b with
        | error e => simp [Except.map, ha, hb, hc]
        | ok n =>
          cases hw : Spline.mulScalar cfg r.wt rhs.wt with
          | error e => simp [Except.map, ha, hb, hc, hw]
          | ok w => cases hq : compatible (⟨n, w⟩ : RSpline K V) <;> simp [Except.map, assertM, ha, hb, hc, hw, hq]

end RSpline

section
variable {K V : Type} [Zero K] [One K] [Add K] [Sub K] [Mul K] [Div K] [NatCast K] [BEq K] [Zero V] [Add V] [Sub V] [SMul K V]

theorem RMutator.applyC_like (cfg : Cfg) (m : RMutator K V) : LikeM (m.applyC cfg) fun r => m.apply cfg r := by
  cases m with
  | assign rhs => exact RSpline.assignC_like rhs
  | updateDegrees nd => exact RSpline.updateDegreesC_like nd
  | orderElevate d => exact RSpline.orderElevateC_like d
  | addAssign rhs =>
    exact RSpline.combineAssignC_like cfg _ (fun s t => Spline.addAssign K cfg s t) (fun t => Spline.combineAssignC_like cfg _ t) rhs
  | subAssign rhs =>
    exact RSpline.combineAssignC_like cfg _ (fun s t => Spline.subAssign K cfg s t) (fun t => Spline.combineAssignC_like cfg _ t) rhs
  | _ => exact LikeM.run _

end

end Bezman
