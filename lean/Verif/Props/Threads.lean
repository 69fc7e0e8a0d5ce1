import Verif.Proofs.ThreadsOps
import Verif.Props.Messages

/-! # Properties: threads -/

namespace Bezman.Props
open Spec Threads Messages
variable {α ρ : Type}

/-! ## C103 -/

/-- C103, the full statement `C103_Statement`: threads that share splines only for reading, and leave the output level of the logger
alone, never race. It is false of the code, see `C103_time_stamp_fails` and `C103_log_file_fails`. -/
def C103_Statement (α ρ : Type) : Prop :=
  ∀ (enabled : Bool) (m : Mem α) (progs : List (List (Stmt α ρ))), Separate progs → (∀ p ∈ progs, LeavesLevel p) →
    ∀ sch, ¬ DataRace ((start enabled m progs).run sch)

theorem apart_start {enabled : Bool} {m : Mem α} {progs : List (List (Stmt α ρ))} (hs : Separate progs) (hl : ∀ p ∈ progs, LeavesLevel p)
    (hq : ∀ p ∈ progs, ∀ x ∈ (alone m.vars [] p).said, ¬ Loud enabled m.level x.1) :
    Apart (fun i => {l | l = .level ∨ ∃ v ∈ uses (progs.getD i []), l = .var v}) (fun i => {l | ∃ v ∈ changes (progs.getD i []), l = .var v})
      (start enabled m progs) where
  within i a₀ h := by
    obtain ⟨p, hp, rfl⟩ : ∃ p, progs[i]? = some p ∧ code enabled [] p = a₀ := by simpa [start] using h
    have e : progs.getD i [] = p := by simp [hp]
    rw [e]
    exact (code_alone (.inl rfl) (fun v hv => .inr ⟨v, hv, rfl⟩) (fun v hv => show ∃ w ∈ changes p, Loc.var v = .var w from ⟨v, hv, rfl⟩) (hl p (List.mem_of_getElem? hp))
      (hq p (List.mem_of_getElem? hp))).1
  apart i j hi hj hij l := by
    rintro ⟨v, hv, rfl⟩
    simp only [start, List.length_map] at hi hj
    simp only [List.getD_eq_getElem?_getD, List.getElem?_eq_getElem hi, List.getElem?_eq_getElem hj, Option.getD_some] at hv ⊢
    have := hs i j _ _ hij (List.getElem?_eq_getElem hi) (List.getElem?_eq_getElem hj) v hv
    constructor
    · rintro (h | ⟨w, hw, h⟩)
      · cases h
      · cases h
        exact this hw
    · rintro ⟨w, ⟨c, b, h1, h2⟩, h⟩
      cases h
      exact this ⟨c, b, h1, .inr h2⟩
  silent := rfl

theorem join_pieces (enabled : Bool) (n : ℕ) (said : List (LogKind × String)) :
    String.join (allPieces enabled n said) = String.join (printed enabled n said) := by
  have e : ∀ l : List (LogKind × String), String.join (l.flatMap fun m => linePieces m.1 m.2) = String.join (l.map fun m => line m.1 m.2) := by
    intro l
    induction l with
    | nil => rfl
    | cons x l ih =>
      have e' : "] : " = "]" ++ " : " := rfl
      rw [List.flatMap_cons, List.map_cons, String.join_append, String.join_cons, ih]
      have e2 : String.join (linePieces x.1 x.2) = line x.1 x.2 := by
        unfold linePieces line
        generalize Logger.setw 20 (Logger.colorText x.1.head x.1.code) = u
        generalize Logger.colorText x.2 x.1.code = v
        simp only [String.join_cons, String.join_nil, e', String.append_assoc, String.append_empty, String.empty_append]
      rw [e2]
  exact e _

/-- C103. Threads that share splines only for reading do not race, however they are scheduled, as long as the level of the logger is not
changed and no thread sends a message that makes the logger use a file or the clock. -/
theorem C103_no_race_partial (enabled : Bool) (m : Mem α) (progs : List (List (Stmt α ρ))) (hs : Separate progs)
    (hl : ∀ p ∈ progs, LeavesLevel p) (hq : ∀ p ∈ progs, ∀ x ∈ (alone m.vars [] p).said, ¬ Loud enabled m.level x.1) (sch : List ℕ) :
    ¬ DataRace ((start enabled m progs).run sch) :=
  (Inv.run (apart_start hs hl hq) sch (apart_start hs hl hq).inv).no_race (apart_start hs hl hq)

/-- C103. And then the schedule has no influence: each thread ends with the results, or with the error, it has if it is the only one, and
leaves the same splines and the same text on the console; other splines and the logger are unchanged. -/
theorem C103_schedule_partial (enabled : Bool) (m : Mem α) (progs : List (List (Stmt α ρ))) (hs : Separate progs)
    (hl : ∀ p ∈ progs, LeavesLevel p) (hq : ∀ p ∈ progs, ∀ x ∈ (alone m.vars [] p).said, ¬ Loud enabled m.level x.1) (sch : List ℕ)
    (hf : Finished ((start enabled m progs).run sch)) :
    (∀ (i : ℕ) (p : List (Stmt α ρ)), progs[i]? = some p →
      ((start enabled m progs).run sch).threads[i]? = some (.stop (alone m.vars [] p).outs (alone m.vars [] p).error) ∧
      (∀ v ∈ uses p, ((start enabled m progs).run sch).mem.vars v = (alone m.vars [] p).vars v) ∧
      spoken i ((start enabled m progs).run sch).console = String.join (printed enabled m.level (alone m.vars [] p).said)) ∧
    (∀ v, (∀ p ∈ progs, v ∉ changes p) → ((start enabled m progs).run sch).mem.vars v = m.vars v) ∧
    ((start enabled m progs).run sch).mem.level = m.level ∧ ((start enabled m progs).run sch).mem.file = m.file := by
  have ha := apart_start hs hl hq
  have hi := Inv.run ha sch ha.inv
  refine ⟨fun i p hp => ?_, fun v hv => ?_, ?_, ?_⟩
  · have hp' : (start enabled m progs).threads[i]? = some (code enabled [] p) := by simp [start, hp]
    obtain ⟨h1, h2, h3⟩ := hi.finished hf hp'
    have e := (code_alone (T := Set.univ) (W := Set.univ) (m := m) trivial (fun v _ => trivial) (fun v _ => trivial)
      (hl p (List.mem_of_getElem? hp)) (hq p (List.mem_of_getElem? hp))).2
    rw [show (start enabled m progs).mem = m from rfl, e] at h1 h2 h3
    refine ⟨h1, fun v hv => h2 (.var v) (.inl (.inr ⟨v, by simpa [hp] using hv, rfl⟩)), ?_⟩
    rw [← join_pieces]
    exact congrArg String.join h3
  · refine hi.rest (.var v) fun i hi' => ?_
    rintro ⟨w, hw, h⟩
    cases h
    simp only [start, List.length_map] at hi'
    rw [List.getD_eq_getElem?_getD, List.getElem?_eq_getElem hi'] at hw
    exact hv _ (List.getElem_mem hi') hw
  · exact hi.rest .level fun i _ ⟨w, _, h⟩ => by cases h
  · funext f
    exact hi.rest (.stream f) fun i _ ⟨w, _, h⟩ => by cases h

/-- C103. There are no deadlocks: from every state all threads can come to their end. -/
theorem C103_completes (c : Config α ρ) : ∃ sch, Finished (c.run sch) := can_finish c

/-- C103. With time stamps and log files switched off, separate threads never race, whatever they call and whatever fails. -/
theorem C103_quiet_level_partial (enabled : Bool) (m : Mem α) (progs : List (List (Stmt α ρ))) (hs : Separate progs)
    (hl : ∀ p ∈ progs, LeavesLevel p) (ht : has .time_stamp m.level = false) (hfl : enabled = true → ¬ FilesOn m.level) (sch : List ℕ) :
    ¬ DataRace ((start enabled m progs).run sch) := by
  refine C103_no_race_partial enabled m progs hs hl (fun p _ x _ h => ?_) sch
  rcases h with ⟨h1, h2⟩ | ⟨h1, _⟩
  · exact hfl h1 h2
  · rw [ht] at h1
    cases h1

/-- C103. With the default level of the logger, separate threads never race if no call fails with `TerminatingError`, and, in a
program with logging, no warnings, errors and user information are reported. -/
theorem C103_default_level_partial (enabled : Bool) (m : Mem α) (progs : List (List (Stmt α ρ))) (hs : Separate progs)
    (hl : ∀ p ∈ progs, LeavesLevel p) (h39 : m.level = 39)
    (hq : ∀ p ∈ progs, ∀ x ∈ (alone m.vars [] p).said, x.1 ≠ .terminating ∧ (enabled = true → x.1 = .logging ∨ x.1 = .extended))
    (sch : List ℕ) : ¬ DataRace ((start enabled m progs).run sch) := by
  refine C103_no_race_partial enabled m progs hs hl (fun p hp x hx h => ?_) sch
  obtain ⟨h1, h2⟩ := hq p hp x hx
  rw [h39] at h
  rcases h with ⟨_, h | h | h⟩ | ⟨_, h, h'⟩
  · cases h
  · cases h
  · cases h
  · rcases h' with h' | h'
    · rcases h2 h' with e | e <;> rw [e] at h <;> cases h
    · exact h1 h'

/-- C103. In a program with one thread the logger, access by access, is the logger of C55, C56 and C74: after any calls it has the same
output level, the same files are open with the same contents, and the same text has been printed. -/
theorem C103_one_thread (enabled : Bool) (m : Mem α) (s : Logger.State) (h : SameLog m s) (calls : List LogCall) (sch : List ℕ)
    (hf : Finished ((start (ρ := ρ) enabled m [calls.map LogCall.stmt]).run sch)) :
    SameLog ((start (ρ := ρ) enabled m [calls.map LogCall.stmt]).run sch).mem (Logger.run enabled (calls.map LogCall.call) s) ∧
    String.join (Logger.run enabled (calls.map LogCall.call) s).console =
      String.join s.console ++ spoken 0 ((start (ρ := ρ) enabled m [calls.map LogCall.stmt]).run sch).console ∧
    ((start (ρ := ρ) enabled m [calls.map LogCall.stmt]).run sch).mem.vars = m.vars := by
  obtain ⟨m', l, h1, h2, h3, h4⟩ := code_does (α := α) (ρ := ρ) enabled [] calls h
  have ha : Apart (fun _ => Set.univ) (fun _ => Set.univ) (start (ρ := ρ) enabled m [calls.map LogCall.stmt]) :=
    ⟨fun i a₀ _ => within_univ _ _, fun i j hi hj hij => by simp [start] at hi hj; omega, rfl⟩
  obtain ⟨-, b2, b3⟩ := (Inv.run ha sch ha.inv).finished (i := 0) (a₀ := code enabled [] (calls.map LogCall.stmt)) hf rfl
  rw [show (start (ρ := ρ) enabled m [calls.map LogCall.stmt]).mem = m from rfl, h4] at b2 b3
  have e1 : ((start (ρ := ρ) enabled m [calls.map LogCall.stmt]).run sch).mem.level = m'.level := b2 .level (.inl trivial)
  have e2 : ∀ f, ((start (ρ := ρ) enabled m [calls.map LogCall.stmt]).run sch).mem.file f = m'.file f := fun f => b2 (.stream f) (.inl trivial)
  have e3 : ∀ v, ((start (ρ := ρ) enabled m [calls.map LogCall.stmt]).run sch).mem.vars v = m'.vars v := fun v => b2 (.var v) (.inl trivial)
  refine ⟨⟨e1.trans h2.1, fun f => by rw [e2]; exact h2.2 f⟩, ?_, ?_⟩
  · rw [h3]
    exact congrArg _ (congrArg String.join b3).symm
  · funext v
    rw [e3, h1]

/-! ### the calls of the library -/

section
variable {K V : Type} [Zero K] [One K] [Sub K] [Neg K] [Mul K] [Div K] [NatCast K] [LT K] [DecidableLT K] [Zero V] [Add V] [SMul K V]
  [Add K] [Sub V] [Neg V] [Coords K V]

/-- a message of the library as a message of a thread -/
def toldBy (l : List Msg) : List (LogKind × String) := l.map fun m => (LogKind.of m.kind, m.text)

/-- C103. A message of the library reaches the logger through the same function in a thread as in a program with one thread. -/
theorem C103_library_message (m : Msg) : ((toldBy [m]).map fun x => (LogCall.message x.1 x.2).call) = [m.call "<time>"] := by
  obtain ⟨k, t⟩ := m
  cases k <;> rfl

/-- C103. What the calls do in a thread that is alone: they compute what the other properties are about, write it to the variable that is
assigned, leave the other variables alone, and tell the logger what C105 says. -/
theorem C103_calls (cfg : Cfg) (tx : K → String) (vars : ℕ → Spline V) (b : Bool) (i j k l d p : ℕ) (t : List K) (z : K) (orders : List ℕ)
    (x : V) (r r' : Spline V) :
    alone vars ([] : List V) [.call (Op.call (K := K) cfg tx (.copy k j)) b] = ⟨Function.update vars k (vars j), [], none, []⟩ ∧
    ((vars j).evaluate t = .ok x → alone vars [] [.call (Op.call cfg tx (.evaluate j t)) b] = ⟨vars, [x], none, []⟩) ∧
    ((vars j).orderElevate K d = .ok r → (vars j).degrees[d]? = some p →
      alone vars [] [.call (Op.call (K := K) cfg tx (.elevate j d)) b] = ⟨Function.update vars j r, [], none, toldBy [elevated d (p + 1)]⟩) ∧
    ((vars i).addOp K cfg (vars j) = .ok r → (vars i).dim = (vars j).dim →
      alone vars [] [.call (Op.call (K := K) cfg tx (.add k i j)) b] = ⟨Function.update vars k r, [], none,
        toldBy (climb (vars i).degrees (vars j).degrees ++ climb (vars j).degrees (vars i).degrees)⟩) ∧
    ((vars i).addAssign K cfg (vars j) = .ok r → (vars i).dim = (vars j).dim →
      alone vars [] [.call (Op.call (K := K) cfg tx (.addAssign i j)) b] = ⟨Function.update vars i r, [], none,
        toldBy (climb (vars i).degrees (vars j).degrees ++ climb (vars j).degrees (vars i).degrees)⟩) ∧
    ((vars j).derivativeSpline K cfg orders = .ok r → orders ≠ [] →
      alone vars [] [.call (Op.call (K := K) cfg tx (.derive k j orders)) b] = ⟨Function.update vars k r, [], none, toldBy (derived orders)⟩) ∧
    ((vars j).splitAt z d = .ok (r, r') →
      alone vars [] [.call (Op.call cfg tx (.split k l j z d)) b] =
        ⟨Function.update (Function.update vars k r) l r', [], none, toldBy [splitting d (tx z)]⟩) ∧
    (¬ (0 < z ∧ z < 1) →
      alone vars [] [.call (Op.call cfg tx (.split k l j z d)) b] =
        ⟨vars, [], if b then none else some .throws, toldBy [splitting d (tx z), splitRefused (tx z)]⟩) := by
  have key : ∀ {β : Type} (c : Call (Spline V) V) (y : Said β) (f : β → List (Spline V) × List V) (v : β) (l : List Msg),
      c.run (c.args.map vars) = heard y f → y.out = .ok v → y.log = l →
      alone vars [] [.call c b] = ⟨assign vars c.targets (f v).1, (f v).2, none, toldBy l⟩ := by
    intro β c y f v l h1 h2 h3
    simp [alone, h1, heard, h2, h3, Except.map, Solo.after, toldBy]
  have one : ∀ (k : ℕ) (r : Spline V), assign vars [k] [r] = Function.update vars k r := by
    intro k r
    funext j
    simp [assign, Function.update_apply]
  refine ⟨?_, fun h => ?_, fun h hp => ?_, fun h hd => ?_, fun h hd => ?_, fun h hn => ?_, fun h => ?_, fun h => ?_⟩
  · rw [key _ _ _ (vars j) [] rfl rfl rfl, ← one]; rfl
  · rw [key _ _ _ x [] rfl h (by rfl)]; rfl
  · obtain ⟨p', hp', hl⟩ := C105_elevate (K := K) _ _ _ h
    rw [hp] at hp'
    cases hp'
    rw [key _ _ _ r _ rfl ((out_orderElevate _ _).trans h) hl, ← one]; rfl
  · rw [key _ _ _ r _ rfl ((out_addOp _ _ _).trans h) (C105_sum cfg _ _ _ hd h), ← one]; rfl
  · rw [key _ _ _ r _ rfl ((out_addAssign _ _ _).trans h) (C105_sum_in_place cfg _ _ _ hd h), ← one]; rfl
  · rw [key _ _ _ r _ rfl ((out_derivativeSpline _ _ hn).trans h) (C105_derivative cfg _ _ _ hn h), ← one]; rfl
  · have hz : 0 < z ∧ z < 1 := by
      by_contra hz
      unfold Spline.splitAt at h
      rw [if_pos hz] at h
      cases h
    have hl : (Messages.splitAt tx (vars j) z d).log = [splitting d (tx z)] := by
      rw [splitAt_one, splits, if_pos hz]; rfl
    rw [key _ _ _ (r, r') _ rfl ((out_splitAt tx _ _ _).trans h) hl]
    congr 1
    funext v
    simp [Op.call, assign, Function.update_apply]
  · have hl : (Messages.splitAt tx (vars j) z d).log = [splitting d (tx z), splitRefused (tx z)] := by
      rw [splitAt_one, splits, if_neg h]
    have ho : (Messages.splitAt tx (vars j) z d).out = .error .throws := by
      rw [out_splitAt]
      unfold Spline.splitAt
      rw [if_pos h]
    have hr : (Op.call cfg tx (.split k l j z d) : Call (Spline V) V).run [vars j] =
        (toldBy [splitting d (tx z), splitRefused (tx z)], .error .throws) := by
      show (List.map _ (Messages.splitAt tx (vars j) z d).log, Except.map _ (Messages.splitAt tx (vars j) z d).out) = _
      rw [hl, ho]; rfl
    unfold alone
    rw [show (Op.call cfg tx (.split k l j z d) : Call (Spline V) V).args.map vars = [vars j] from rfl, hr]
    cases b <;> simp [Solo.after, alone]

/-- C103. The same for the other calls: differences elevate one operand or both, the bounding box is scaled with one message, and nothing is
said by the rest. -/
theorem C103_more_calls (cfg : Cfg) (tx : K → String) (vars : ℕ → Spline V) (b scalar : Bool) (i j k : ℕ) (t : List K) (c : K)
    (orders : List ℕ) (x : V) (r : Spline V) :
    ((vars i).subOp K cfg (vars j) = .ok r → (vars i).dim = (vars j).dim →
      alone vars [] [.call (Op.call (K := K) cfg tx (.sub k i j)) b] =
        ⟨Function.update vars k r, [], none, toldBy (climb (vars j).degrees (vars i).degrees)⟩) ∧
    ((vars i).subAssign K cfg (vars j) = .ok r → (vars i).dim = (vars j).dim →
      alone vars [] [.call (Op.call (K := K) cfg tx (.subAssign i j)) b] = ⟨Function.update vars i r, [], none,
        toldBy (climb (vars i).degrees (vars j).degrees ++ climb (vars j).degrees (vars i).degrees)⟩) ∧
    ((vars j).negOp = .ok r →
      alone vars ([] : List V) [.call (Op.call (K := K) cfg tx (.neg k j)) b] = ⟨Function.update vars k r, [], none, []⟩) ∧
    ((vars j).smulOp c = .ok r →
      alone vars ([] : List V) [.call (Op.call cfg tx (.scale k j c)) b] = ⟨Function.update vars k r, [], none, []⟩) ∧
    ((vars j).forwardEvaluate cfg t = .ok x →
      alone vars [] [.call (Op.call cfg tx (.forwardEvaluate j t)) b] = ⟨vars, [x], none, []⟩) ∧
    ((vars j).evaluateDerivative cfg t orders = .ok x →
      alone vars [] [.call (Op.call cfg tx (.evaluateDerivative j t orders)) b] = ⟨vars, [x], none, []⟩) ∧
    ((vars j).minimumCorner K = .ok x →
      alone vars [] [.call (Op.call (K := K) cfg tx (.minimumCorner j)) b] = ⟨vars, [x], none, []⟩) ∧
    ((vars j).maximumCorner K = .ok x →
      alone vars [] [.call (Op.call (K := K) cfg tx (.maximumCorner j)) b] = ⟨vars, [x], none, []⟩) ∧
    ((vars j).fitIntoUnitCube K = .ok r →
      alone vars ([] : List V) [.call (Op.call (K := K) cfg tx (.fit j)) b] = ⟨Function.update vars j r, [], none,
        toldBy [⟨.extended, "Starting scaling and transposing spline to move bounds"⟩]⟩) ∧
    ((vars i).compose K cfg (vars j) = .ok r →
      alone vars ([] : List V) [.call (Op.call (K := K) cfg tx (.compose k i j scalar)) b] = ⟨Function.update vars k r, [], none, []⟩) := by
  have key : ∀ {β : Type} (c : Call (Spline V) V) (y : Said β) (f : β → List (Spline V) × List V) (v : β) (l : List Msg),
      c.run (c.args.map vars) = heard y f → y.out = .ok v → y.log = l →
      alone vars [] [.call c b] = ⟨assign vars c.targets (f v).1, (f v).2, none, toldBy l⟩ := by
    intro β c y f v l h1 h2 h3
    simp [alone, h1, heard, h2, h3, Except.map, Solo.after, toldBy]
  have one : ∀ (k : ℕ) (r : Spline V), assign vars [k] [r] = Function.update vars k r := by
    intro k r
    funext j
    simp [assign, Function.update_apply]
  refine ⟨fun h hd => ?_, fun h hd => ?_, fun h => ?_, fun h => ?_, fun h => ?_, fun h => ?_, fun h => ?_, fun h => ?_, fun h => ?_,
    fun h => ?_⟩
  · rw [key _ _ _ r _ rfl ((out_subOp _ _ _).trans h) (C105_difference cfg _ _ _ hd h).2, ← one]; rfl
  · rw [key _ _ _ r _ rfl ((out_subAssign _ _ _).trans h) (C105_difference_in_place cfg _ _ _ hd h), ← one]; rfl
  · rw [key _ _ _ r [] rfl h (by rfl), ← one]; rfl
  · rw [key _ _ _ r [] rfl h (by rfl), ← one]; rfl
  · rw [key _ _ _ x [] rfl h (by rfl)]; rfl
  · rw [key _ _ _ x [] rfl h (by rfl)]; rfl
  · have hl : (Messages.minimumCorner K (vars j)).log = [] := by
      unfold Messages.minimumCorner
      split
      · rename_i h0
        unfold Spline.minimumCorner at h
        rw [if_pos h0] at h
        cases h
      · rfl
    rw [key _ _ _ x [] rfl ((out_minimumCorner _).trans h) hl]; rfl
  · have hl : (Messages.maximumCorner K (vars j)).log = [] := by
      unfold Messages.maximumCorner
      split
      · rename_i h0
        unfold Spline.maximumCorner at h
        rw [if_pos h0] at h
        cases h
      · rfl
    rw [key _ _ _ x [] rfl ((out_maximumCorner _).trans h) hl]; rfl
  · rw [key _ _ _ r _ rfl ((out_fitIntoUnitCube _).trans h) ((C105_unit_cube (K := K) (vars j) 0 0).2 r h), ← one]; rfl
  · have ho := (out_compose cfg scalar (vars i) (vars j)).trans h
    rw [key (Op.call (K := K) cfg tx (.compose k i j scalar)) (Messages.compose K cfg scalar (vars i) (vars j)) _ r [] rfl ho
      (compose_silent cfg scalar _ _ r ho), ← one]; rfl

/-- every statement is one of these calls, and no exception is caught -/
def OnlyOps (cfg : Cfg) (tx : K → String) (p : List (Stmt (Spline V) V)) : Prop := ∀ s ∈ p, ∃ o : Op K, s = .call (o.call cfg tx) false

theorem onlyOps_said {cfg : Cfg} {tx : K → String} : ∀ {p : List (Stmt (Spline V) V)} {vars : ℕ → Spline V} {outs : List V}, OnlyOps cfg tx p →
    (alone vars outs p).error ≠ some .throws → ∀ x ∈ (alone vars outs p).said, x.1 = .logging ∨ x.1 = .extended
  | [], _, _, _, _ => by simp [alone]
  | .setLevel n :: p, _, _, h, _ => by
    obtain ⟨o, ho⟩ := h _ List.mem_cons_self
    cases ho
  | .call c caught :: p, vars, outs, h, he => by
    obtain ⟨o, ho⟩ := h _ List.mem_cons_self
    cases ho
    have ih := fun vars outs => onlyOps_said (vars := vars) (outs := outs) fun s hs => h s (List.mem_cons_of_mem _ hs)
    have hs := op_said cfg tx o (((o.call cfg tx : Call (Spline V) V)).args.map vars)
    unfold alone at he ⊢
    rcases hr : (o.call cfg tx : Call (Spline V) V).run (((o.call cfg tx : Call (Spline V) V)).args.map vars) with ⟨said, out⟩
    rw [hr] at he hs
    cases out with
    | ok r =>
      intro x hx
      rcases List.mem_append.mp hx with hx | hx
      · exact hs (by simp) x hx
      · exact ih _ _ he x hx
    | error e =>
      cases e
      case throws => exact absurd rfl he
      all_goals exact hs (by simp)

/-- C103. At the default level, with or without logging, separate threads that make these calls never race, unless a call throws. -/
theorem C103_ops_partial (cfg : Cfg) (tx : K → String) (enabled : Bool) (m : Mem (Spline V)) (h39 : m.level = 39)
    (progs : List (List (Stmt (Spline V) V))) (hs : Separate progs) (ho : ∀ p ∈ progs, OnlyOps cfg tx p)
    (he : ∀ p ∈ progs, (alone m.vars [] p).error ≠ some .throws) (sch : List ℕ) : ¬ DataRace ((start enabled m progs).run sch) := by
  refine C103_default_level_partial enabled m progs hs (fun p hp n hn => ?_) h39 (fun p hp x hx => ?_) sch
  · obtain ⟨o, h⟩ := ho p hp _ hn
    cases h
  · have := onlyOps_said (ho p hp) (he p hp) x hx
    rcases this with h | h <;> rw [h] <;> simp

/-- C103. Products and powers of splines of numbers, in a thread that is alone: they say nothing, except for the exponent 0, which is reported
as an error although the call succeeds. -/
theorem C103_power_calls (cfg : Cfg) (vars : ℕ → Spline K) (b : Bool) (i j k n : ℕ) (r : Spline K) :
    (Spline.mulScalar cfg (vars i) (vars j) = .ok r →
      alone vars ([] : List K) [.call (NumOp.call cfg (.mul k i j)) b] = ⟨Function.update vars k r, [], none, []⟩) ∧
    ((vars j).raisePower cfg n = .ok r →
      alone vars ([] : List K) [.call (NumOp.call cfg (.power k j n)) b] = ⟨Function.update vars k r, [], none,
        if n = 0 then [(.error, "Raising to 0 is inefficient. Please revisit")] else []⟩) := by
  have one : ∀ (k : ℕ) (r : Spline K), assign vars [k] [r] = Function.update vars k r := by
    intro k r
    funext j
    simp [assign, Function.update_apply]
  refine ⟨fun h => ?_, fun h => ?_⟩
  · have hr : (NumOp.call cfg (.mul k i j) : Call (Spline K) K).run [vars i, vars j] = ([], .ok ([r], [])) := by
      show (_, Except.map _ (Spline.mulScalar cfg (vars i) (vars j))) = _
      rw [h]; rfl
    unfold alone
    rw [show (NumOp.call cfg (.mul k i j) : Call (Spline K) K).args.map vars = [vars i, vars j] from rfl, hr, ← one]
    rfl
  · have hr : (NumOp.call cfg (.power k j n) : Call (Spline K) K).run [vars j] =
        (if n = 0 then [(.error, "Raising to 0 is inefficient. Please revisit")] else [], .ok ([r], [])) := by
      show (List.map _ (Messages.raisePower cfg (vars j) n).log, Except.map _ (Messages.raisePower cfg (vars j) n).out) = _
      rw [C105_power, out_raisePower, h]
      split <;> rfl
    unfold alone
    rw [show (NumOp.call cfg (.power k j n) : Call (Spline K) K).args.map vars = [vars j] from rfl, hr, ← one]
    by_cases hn : n = 0 <;> simp [hn, Solo.after, alone, NumOp.call]

end

/-! ### races -/

/-- the calls of the examples -/
def op (o : Op ℚ) (caught : Bool) : Stmt (Spline ℚ) ℚ := .call (o.call ⟨5, 5⟩ fun z => toString z) caught

/-- two threads, each with a spline of its own -/
def exMem (level : ℕ) : Mem (Spline ℚ) := ⟨fun i => if i = 0 then Ex.line 1 3 else Ex.curve 0 1 4, level, fun _ => ⟨false, []⟩⟩

/-- each thread splits its spline outside of the parameter domain, and catches the exception -/
def exFail : List (List (Stmt (Spline ℚ) ℚ)) := [[op (.split 0 2 0 2 0) true], [op (.split 1 3 1 2 0) true]]

/-- each thread elevates its spline -/
def exElevate : List (List (Stmt (Spline ℚ) ℚ)) := [[op (.elevate 0 0) false], [op (.elevate 1 0) false]]

theorem exFail_separate : Separate exFail := by
  intro i j p q hij hp hq v hv hu
  have hi := (List.getElem?_eq_some_iff.mp hp).1
  have hj := (List.getElem?_eq_some_iff.mp hq).1
  simp only [exFail, List.length_cons, List.length_nil] at hi hj
  obtain ⟨rfl, rfl⟩ | ⟨rfl, rfl⟩ : i = 0 ∧ j = 1 ∨ i = 1 ∧ j = 0 := by omega
  all_goals
    simp only [exFail, List.getElem?_cons_zero, List.getElem?_cons_succ, Option.some.injEq] at hp hq
    subst hp hq
    simp [changes, uses, op, Op.call] at hv hu
    omega

theorem exElevate_separate : Separate exElevate := by
  intro i j p q hij hp hq v hv hu
  have hi := (List.getElem?_eq_some_iff.mp hp).1
  have hj := (List.getElem?_eq_some_iff.mp hq).1
  simp only [exElevate, List.length_cons, List.length_nil] at hi hj
  obtain ⟨rfl, rfl⟩ | ⟨rfl, rfl⟩ : i = 0 ∧ j = 1 ∨ i = 1 ∧ j = 0 := by omega
  all_goals
    simp only [exElevate, List.getElem?_cons_zero, List.getElem?_cons_succ, Option.some.injEq] at hp hq
    subst hp hq
    simp [changes, uses, op, Op.call] at hv hu
    omega

/-- C103 is false at the default level, without log files: two threads with splines of their own that both run into an error, and catch it,
race for the buffers of `std::localtime` and `std::asctime`. -/
theorem C103_time_stamp_fails : Separate exFail ∧ (∀ p ∈ exFail, LeavesLevel p) ∧
    ∃ sch, DataRace ((start false (exMem 39) exFail).run sch) :=
  ⟨exFail_separate, by simp [exFail, op, LeavesLevel], [0, 0, 0, 0, 0, 0, 1, 1, 1, 1, 1, 1],
    0, 1, _, _, .clock, true, true, by decide, rfl, rfl, rfl, rfl, .inl rfl⟩

/-- C103 is false with the log file: two threads that elevate splines of their own, without any error, race for the file stream. -/
theorem C103_log_file_fails : Separate exElevate ∧ (∀ p ∈ exElevate, LeavesLevel p) ∧
    ∃ sch, DataRace ((start true (exMem 256) exElevate).run sch) :=
  ⟨exElevate_separate, by simp [exElevate, op, LeavesLevel], [0, 0, 0, 1, 1],
    0, 1, _, _, .stream .log, true, false, by decide, rfl, rfl, rfl, rfl, .inl rfl⟩

/-- each thread raises its spline to the power 0 -/
def exPower : List (List (Stmt (Spline ℚ) ℚ)) :=
  [[.call (NumOp.call ⟨5, 5⟩ (.power 2 0 0)) false], [.call (NumOp.call ⟨5, 5⟩ (.power 3 1 0)) false]]

theorem exPower_separate : Separate exPower := by
  intro i j p q hij hp hq v hv hu
  have hi := (List.getElem?_eq_some_iff.mp hp).1
  have hj := (List.getElem?_eq_some_iff.mp hq).1
  simp only [exPower, List.length_cons, List.length_nil] at hi hj
  obtain ⟨rfl, rfl⟩ | ⟨rfl, rfl⟩ : i = 0 ∧ j = 1 ∨ i = 1 ∧ j = 0 := by omega
  all_goals
    simp only [exPower, List.getElem?_cons_zero, List.getElem?_cons_succ, Option.some.injEq] at hp hq
    subst hp hq
    simp [changes, uses, NumOp.call] at hv hu
    omega

/-- C103 is false at the default level even where every call succeeds: in a program with logging, two threads that raise splines of their
own to the power 0 race for the buffers of `std::localtime` and `std::asctime`. -/
theorem C103_power_fails : Separate exPower ∧ (∀ p ∈ exPower, LeavesLevel p) ∧
    (∀ p ∈ exPower, (alone (exMem 39).vars [] p).error = none) ∧ ∃ sch, DataRace ((start true (exMem 39) exPower).run sch) :=
  ⟨exPower_separate, by simp [exPower, LeavesLevel], by decide +kernel, List.replicate 9 0 ++ List.replicate 9 1,
    0, 1, _, _, .clock, true, true, by decide, rfl, rfl, rfl, rfl, .inl rfl⟩

theorem C103_statement_fails : ¬ C103_Statement (Spline ℚ) ℚ := fun h => by
  obtain ⟨h1, h2, sch, h3⟩ := C103_time_stamp_fails
  exact h false _ _ h1 h2 sch h3

/-- each thread evaluates its spline; the first one sets the output level, the second one has a spline that cannot be split at 2 -/
def exLevel : List (List (Stmt (Spline ℚ) ℚ)) := [[.setLevel 0], [op (.split 1 3 1 2 0) true]]

/-- C103. `SetOutputLevel` must not be called while other threads may report: the level itself is not protected. -/
theorem C103_set_level_fails : ∃ sch, DataRace ((start false (exMem 0) exLevel).run sch) :=
  ⟨[1], 0, 1, _, _, .level, true, false, by decide, rfl, rfl, rfl, rfl, .inl rfl⟩

/-- the thread has come to its end -/
def isStop : Act α ρ → Bool
  | .stop .. => true
  | _ => false

/-- C103. Where there is no race, the lines of different threads can still be torn on the console: the pieces of two messages alternate. -/
theorem C103_torn_lines : ∃ sch, Finished ((start false (exMem 2) exFail).run sch) ∧
    ((start false (exMem 2) exFail).run sch).console.map Prod.fst = [0, 1, 0, 1, 0, 1, 0, 1, 0, 1, 0, 1, 0, 1] := by
  refine ⟨(List.replicate 11 [0, 1]).flatten, fun a ha => ?_, by decide +kernel⟩
  have : ((start false (exMem 2) exFail).run (List.replicate 11 [0, 1]).flatten).threads.all isStop = true := by decide +kernel
  have := List.all_eq_true.mp this a ha
  cases a <;> simp_all [isStop]

/-! ### concrete cases -/

/-- Two threads read spline 0. The first evaluates it and splits it, the second copies it and elevates the copy. -/
def exShared : List (List (Stmt (Spline ℚ) ℚ)) :=
  [[op (.evaluate 0 [1 / 2]) false, op (.split 2 3 0 (1 / 2) 0) false],
    [op (.copy 4 0) false, op (.elevate 4 0) false, op (.evaluate 4 [1]) false]]

theorem exShared_separate : Separate exShared := by
  intro i j p q hij hp hq v hv hu
  have hi := (List.getElem?_eq_some_iff.mp hp).1
  have hj := (List.getElem?_eq_some_iff.mp hq).1
  simp only [exShared, List.length_cons, List.length_nil] at hi hj
  obtain ⟨rfl, rfl⟩ | ⟨rfl, rfl⟩ : i = 0 ∧ j = 1 ∨ i = 1 ∧ j = 0 := by omega
  all_goals
    simp only [exShared, List.getElem?_cons_zero, List.getElem?_cons_succ, Option.some.injEq] at hp hq
    subst hp hq
    simp only [changes, uses, List.mem_cons, List.not_mem_nil, or_false, Set.mem_setOf_eq] at hv hu
    obtain ⟨c, b, h1, h2⟩ := hv
    obtain ⟨c', b', h1', h2'⟩ := hu
    simp only [op, Stmt.call.injEq] at h1 h1'
    rcases h1 with ⟨rfl, -⟩ | ⟨rfl, -⟩ | ⟨rfl, -⟩ <;> rcases h1' with ⟨rfl, -⟩ | ⟨rfl, -⟩ | ⟨rfl, -⟩ <;>
      simp [Op.call] at h2 h2' <;> omega

example (enabled : Bool) (sch : List ℕ) : ¬ DataRace ((start enabled (exMem 39) exShared).run sch) :=
  C103_default_level_partial enabled _ _ exShared_separate (by simp [exShared, op, LeavesLevel]) rfl (by
    have : ∀ p ∈ exShared, ∀ x ∈ (alone (exMem 39).vars [] p).said, x.1 = .extended := by decide +kernel
    intro p hp x hx
    rw [this p hp x hx]
    simp) sch

/-- some schedule brings these calls to their end -/
example : ∃ sch, Finished ((start (ρ := ℚ) true (exMem 39) [[LogCall.setLevel 511, .message .warning "w", .message .terminating "e",
    .message .extended "x"].map LogCall.stmt]).run sch) := C103_completes _
example : SameLog (exMem 39) (Logger.initial fun _ => []) := ⟨rfl, fun _ => ⟨rfl, rfl⟩⟩

/-- whatever the schedule, the first thread computes the value 2 -/
example (sch : List ℕ) (hf : Finished ((start false (exMem 39) exShared).run sch)) :
    ((start false (exMem 39) exShared).run sch).threads[0]? = some (.stop [2] none) := by
  have h := C103_schedule_partial false (exMem 39) exShared exShared_separate (by simp [exShared, op, LeavesLevel]) (by
    have : ∀ p ∈ exShared, ∀ x ∈ (alone (exMem 39).vars [] p).said, x.1 = .extended := by decide +kernel
    intro p hp x hx
    rw [this p hp x hx]
    rintro (⟨h, -⟩ | ⟨-, h, -⟩) <;> cases h) sch hf
  have e1 : (alone (exMem 39).vars [] (exShared.headD [])).outs = [2] := by decide +kernel
  have e2 : (alone (exMem 39).vars [] (exShared.headD [])).error = none := by decide +kernel
  rw [(h.1 0 (exShared.headD []) rfl).1, e1, e2]

/-- elevations and sums in two threads that both read spline 0, at the default level -/
def exOps : List (List (Stmt (Spline ℚ) ℚ)) :=
  [[op (.add 2 0 1) false, op (.elevate 2 0) false, op (.derive 2 2 [1]) false], [op (.copy 4 0) false, op (.addAssign 4 0) false]]

theorem exOps_separate : Separate exOps := by
  intro i j p q hij hp hq v hv hu
  have hi := (List.getElem?_eq_some_iff.mp hp).1
  have hj := (List.getElem?_eq_some_iff.mp hq).1
  simp only [exOps, List.length_cons, List.length_nil] at hi hj
  obtain ⟨rfl, rfl⟩ | ⟨rfl, rfl⟩ : i = 0 ∧ j = 1 ∨ i = 1 ∧ j = 0 := by omega
  all_goals
    simp only [exOps, List.getElem?_cons_zero, List.getElem?_cons_succ, Option.some.injEq] at hp hq
    subst hp hq
    simp only [changes, uses, List.mem_cons, List.not_mem_nil, or_false, Set.mem_setOf_eq] at hv hu
    obtain ⟨c, b, h1, h2⟩ := hv
    obtain ⟨c', b', h1', h2'⟩ := hu
    simp only [op, Stmt.call.injEq] at h1 h1'
    rcases h1 with ⟨rfl, -⟩ | ⟨rfl, -⟩ | ⟨rfl, -⟩ <;> rcases h1' with ⟨rfl, -⟩ | ⟨rfl, -⟩ | ⟨rfl, -⟩ <;>
      simp [Op.call] at h2 h2' <;> omega

example (enabled : Bool) (sch : List ℕ) : ¬ DataRace ((start enabled (exMem 39) exOps).run sch) :=
  C103_ops_partial ⟨5, 5⟩ (fun z : ℚ => toString z) enabled (exMem 39) rfl exOps exOps_separate
    (by
      intro p hp s hs
      simp only [exOps, List.mem_cons, List.not_mem_nil, or_false] at hp
      rcases hp with rfl | rfl
      all_goals
        simp only [List.mem_cons, List.not_mem_nil, or_false] at hs
        rcases hs with rfl | rfl | rfl <;> exact ⟨_, rfl⟩)
    (by decide +kernel) sch

/-- the first thread computes something: the derivative of the elevated sum, and tells of three elevations and a derivative -/
example : (alone (exMem 39).vars [] (exOps.headD [])).error = none ∧
    (alone (exMem 39).vars [] (exOps.headD [])).said.map Prod.fst = [.extended, .extended, .logging, .logging] ∧
    ((alone (exMem 39).vars [] (exOps.headD [])).vars 2).degrees = [2] := by decide +kernel

/-- the other calls compute something: the line 1, 3 is scaled into the unit cube, composed into the curve, and the curve is subtracted -/
def exMore : List (Stmt (Spline ℚ) ℚ) :=
  [op (.fit 0) false, op (.compose 2 1 0 true) false, op (.sub 3 2 1) false, op (.neg 3 3) false, op (.scale 3 1 2) false,
    op (.subAssign 3 0) false, op (.minimumCorner 3) false, op (.maximumCorner 3) false, op (.forwardEvaluate 1 [1 / 2]) false,
    op (.evaluateDerivative 1 [0] [1]) false]

example : (alone (exMem 39).vars [] exMore).error = none ∧ (alone (exMem 39).vars [] exMore).outs = [0, 7, 3 / 2, 2] ∧
    (alone (exMem 39).vars [] exMore).said.map Prod.fst = [.extended, .extended] ∧
    ((alone (exMem 39).vars [] exMore).vars 0).cps = [0, 1] := by decide +kernel

example : OnlyOps ⟨5, 5⟩ (fun z : ℚ => toString z) exMore := by
  intro s hs
  simp only [exMore, List.mem_cons, List.not_mem_nil, or_false] at hs
  rcases hs with rfl | rfl | rfl | rfl | rfl | rfl | rfl | rfl | rfl | rfl <;> exact ⟨_, rfl⟩

example : ((exMem 39).vars 0).raisePower ⟨5, 5⟩ 2 = .ok (Ex.curve 1 3 9) := by decide +kernel

example (sch : List ℕ) : ¬ DataRace ((start false (exMem 2) exFail).run sch) :=
  C103_quiet_level_partial false _ _ exFail_separate (by simp [exFail, op, LeavesLevel]) rfl (by simp) sch

end Bezman.Props
