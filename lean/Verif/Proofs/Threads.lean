import Mathlib.Data.List.Basic
import Mathlib.Tactic.Tauto
import Verif.Spec.Threads

/-! # Threads -/

namespace Bezman.Threads
open Spec
open Logger (OutputLevel FileId File fileLevel)
variable {α ρ : Type}

/-- equal at one place -/
def Same : Loc → Mem α → Mem α → Prop
  | .var i, m, m' => m.vars i = m'.vars i
  | .level, m, m' => m.level = m'.level
  | .stream f, m, m' => m.file f = m'.file f
  | .clock, _, _ => True

theorem Same.refl (l : Loc) (m : Mem α) : Same l m m := by cases l <;> simp [Same]

theorem Same.trans {l : Loc} {m m' m'' : Mem α} (h : Same l m m') (h' : Same l m' m'') : Same l m m'' := by
  cases l <;> simp_all [Same]

theorem Same.symm {l : Loc} {m m' : Mem α} (h : Same l m m') : Same l m' m := by
  cases l <;> simp_all [Same]

/-- what the thread does if it is the only one: memory, result, console -/
def Act.finish (m : Mem α) : Act α ρ → Mem α × List ρ × Option Err × List String
  | .stop outs e => (m, outs, e, [])
  | .readVar i k => (k (m.vars i)).finish m
  | .writeVar i x k => k.finish { m with vars := fun j => if j = i then x else m.vars j }
  | .readLevel k => (k m.level).finish m
  | .writeLevel n k => k.finish { m with level := n }
  | .isOpen f k => (k (m.file f).isOpen).finish m
  | .openFile f k => k.finish (m.setFile f ⟨true, []⟩)
  | .closeFile f k => k.finish (m.setFile f ⟨false, (m.file f).lines⟩)
  | .writeFile f text k => k.finish (if (m.file f).isOpen then m.setFile f ⟨true, (m.file f).lines ++ [text]⟩ else m)
  | .stamp k => k.finish m
  | .print text k => let r := k.finish m; (r.1, r.2.1, r.2.2.1, text :: r.2.2.2)

/-- if it is the only one, the thread accesses only places of `T` and writes only places of `W` -/
def Act.Within (T W : Set Loc) (m : Mem α) : Act α ρ → Prop
  | .stop _ _ => True
  | .readVar i k => .var i ∈ T ∧ (k (m.vars i)).Within T W m
  | .writeVar i x k => .var i ∈ W ∧ k.Within T W { m with vars := fun j => if j = i then x else m.vars j }
  | .readLevel k => .level ∈ T ∧ (k m.level).Within T W m
  | .writeLevel n k => .level ∈ W ∧ k.Within T W { m with level := n }
  | .isOpen f k => .stream f ∈ T ∧ (k (m.file f).isOpen).Within T W m
  | .openFile f k => .stream f ∈ W ∧ k.Within T W (m.setFile f ⟨true, []⟩)
  | .closeFile f k => .stream f ∈ W ∧ k.Within T W (m.setFile f ⟨false, (m.file f).lines⟩)
  | .writeFile f text k =>
    .stream f ∈ W ∧ k.Within T W (if (m.file f).isOpen then m.setFile f ⟨true, (m.file f).lines ++ [text]⟩ else m)
  | .stamp k => .clock ∈ W ∧ k.Within T W m
  | .print _ k => k.Within T W m

theorem within_step {T W : Set Loc} {m : Mem α} {a : Act α ρ} (h : a.Within T W m) : (a.step m).2.1.Within T W (a.step m).1 := by
  cases a <;> simp_all [Act.Within, Act.step]

theorem within_access {T W : Set Loc} {m : Mem α} {a : Act α ρ} (h : a.Within T W m) {l : Loc} {w : Bool}
    (ha : a.access = some (l, w)) : (l ∈ T ∨ l ∈ W) ∧ (w = true → l ∈ W) := by
  cases a <;> simp_all [Act.Within, Act.access] <;> (obtain ⟨rfl, rfl⟩ := ha; simp_all)

theorem finish_step (m : Mem α) (a : Act α ρ) :
    a.finish m = (((a.step m).2.1.finish (a.step m).1).1, ((a.step m).2.1.finish (a.step m).1).2.1,
      ((a.step m).2.1.finish (a.step m).1).2.2.1, (a.step m).2.2 ++ ((a.step m).2.1.finish (a.step m).1).2.2.2) := by
  cases a <;> simp [Act.finish, Act.step]

/-- a step depends only on the place it accesses -/
theorem step_same {m m' : Mem α} {a : Act α ρ} (h : ∀ l w, a.access = some (l, w) → Same l m m') :
    (a.step m).2 = (a.step m').2 ∧ ∀ l w, a.access = some (l, w) → Same l (a.step m).1 (a.step m').1 := by
  cases a <;> simp_all [Act.access, Act.step, Same, Mem.setFile]
  next f text k =>
    split <;> simp_all

/-- a step changes only the place it writes -/
theorem step_other {m : Mem α} {a : Act α ρ} {l : Loc} (h : a.access ≠ some (l, true)) : Same l (a.step m).1 m := by
  cases a <;> cases l <;> simp_all [Act.access, Act.step, Same, Mem.setFile]
  all_goals first | (intro h'; exact absurd h'.symm h) | skip
  all_goals try split
  all_goals simp_all
  all_goals (intro h'; exact absurd h'.symm h)

/-! ## threads with separate footprints -/

/-- the pieces thread `i` has written to the console -/
def pieces (i : ℕ) (console : List (ℕ × String)) : List String := (console.filter fun x => x.1 = i).map fun x => x.2

theorem pieces_append (i : ℕ) (a b : List (ℕ × String)) : pieces i (a ++ b) = pieces i a ++ pieces i b := by simp [pieces]

theorem pieces_own (i : ℕ) (l : List String) : pieces i (l.map fun s => (i, s)) = l := by
  induction l <;> simp_all [pieces]

theorem pieces_other {i k : ℕ} (h : k ≠ i) (l : List String) : pieces i (l.map fun s => (k, s)) = [] := by
  induction l <;> simp_all [pieces]

structure Inv (T W : ℕ → Set Loc) (c₀ c : Config α ρ) : Prop where
  len : c.threads.length = c₀.threads.length
  rest : ∀ l, (∀ i < c₀.threads.length, l ∉ W i) → Same l c.mem c₀.mem
  own : ∀ (i : ℕ) (a₀ : Act α ρ), c₀.threads[i]? = some a₀ → ∃ m a, c.threads[i]? = some a ∧ a.Within (T i) (W i) m ∧
    (∀ l, l ∈ T i ∨ l ∈ W i → Same l c.mem m) ∧ (a.finish m).1 = (a₀.finish c₀.mem).1 ∧
    (a.finish m).2.1 = (a₀.finish c₀.mem).2.1 ∧ (a.finish m).2.2.1 = (a₀.finish c₀.mem).2.2.1 ∧
    pieces i c.console ++ (a.finish m).2.2.2 = (a₀.finish c₀.mem).2.2.2

/-- separate footprints -/
structure Apart (T W : ℕ → Set Loc) (c₀ : Config α ρ) : Prop where
  within : ∀ (i : ℕ) (a₀ : Act α ρ), c₀.threads[i]? = some a₀ → a₀.Within (T i) (W i) c₀.mem
  apart : ∀ i j : ℕ, i < c₀.threads.length → j < c₀.threads.length → i ≠ j → ∀ l ∈ W i, l ∉ T j ∧ l ∉ W j
  silent : c₀.console = []

theorem Apart.inv {T W : ℕ → Set Loc} {c₀ : Config α ρ} (h : Apart T W c₀) : Inv T W c₀ c₀ where
  len := rfl
  rest l _ := Same.refl l _
  own i a₀ ha := ⟨c₀.mem, a₀, ha, h.within i a₀ ha, fun l _ => Same.refl l _, rfl, rfl, rfl, by rw [h.silent]; rfl⟩

theorem Inv.step {T W : ℕ → Set Loc} {c₀ c : Config α ρ} (h₀ : Apart T W c₀) (h : Inv T W c₀ c) (k : ℕ) : Inv T W c₀ (c.step k) := by
  unfold Config.step
  cases ha : c.threads[k]? with
  | none => exact h
  | some a =>
    have hk : k < c₀.threads.length := by
      rw [← h.len]
      exact (List.getElem?_eq_some_iff.mp ha).1
    obtain ⟨m, a', ha', hw, hs, f1, f2, f3, f4⟩ := h.own k _ (List.getElem?_eq_getElem hk)
    obtain rfl : a = a' := Option.some.inj (ha.symm.trans ha')
    have hacc : ∀ l w, a.access = some (l, w) → Same l c.mem m := fun l w h' => hs l (within_access hw h').1
    obtain ⟨e1, e2⟩ := step_same hacc
    have hnw : ∀ l, l ∉ W k → Same l (a.step c.mem).1 c.mem := fun l hl => step_other fun h' => hl ((within_access hw h').2 rfl)
    refine ⟨by simp [h.len], fun l hl => (hnw l (hl k hk)).trans (h.rest l hl), fun i a₀ hi => ?_⟩
    have hi' : i < c₀.threads.length := (List.getElem?_eq_some_iff.mp hi).1
    by_cases hik : i = k
    · subst hik
      obtain rfl : c₀.threads[i] = a₀ := Option.some.inj ((List.getElem?_eq_getElem hk).symm.trans hi)
      have e := finish_step m a
      rw [e] at f1 f2 f3 f4
      refine ⟨(a.step m).1, (a.step m).2.1, ?_, within_step hw, ?_, f1, f2, f3, ?_⟩
      · simp [h.len, hk, e1]
      · intro l hl
        by_cases hc : ∃ w, a.access = some (l, w)
        · obtain ⟨w, hc⟩ := hc
          exact e2 l w hc
        · push Not at hc
          exact ((step_other (hc true)).trans (hs l hl)).trans (step_other (hc true)).symm
      · rw [pieces_append, pieces_own, List.append_assoc, e1]
        exact f4
    · obtain ⟨m', b, hb, gw, gs, g1, g2, g3, g4⟩ := h.own i a₀ hi
      refine ⟨m', b, ?_, gw, ?_, g1, g2, g3, ?_⟩
      · rw [List.getElem?_set_ne (Ne.symm hik)]
        exact hb
      · intro l hl
        have hl' : l ∉ W k := fun hw' => by
          have := h₀.apart k i hk hi' (Ne.symm hik) l hw'
          tauto
        exact (hnw l hl').trans (gs l hl)
      · rw [pieces_append, pieces_other (Ne.symm hik), List.append_nil]
        exact g4

theorem Inv.run {T W : ℕ → Set Loc} {c₀ : Config α ρ} (h₀ : Apart T W c₀) : ∀ (sch : List ℕ) {c : Config α ρ}, Inv T W c₀ c →
    Inv T W c₀ (c.run sch)
  | [], _, h => h
  | k :: sch, _, h => Inv.run h₀ sch (h.step h₀ k)

theorem Inv.no_race {T W : ℕ → Set Loc} {c₀ c : Config α ρ} (h₀ : Apart T W c₀) (h : Inv T W c₀ c) : ¬ DataRace c := by
  rintro ⟨i, j, a, b, l, w, w', hij, ha, hb, hl, hl', hw⟩
  have hi : i < c₀.threads.length := by rw [← h.len]; exact (List.getElem?_eq_some_iff.mp ha).1
  have hj : j < c₀.threads.length := by rw [← h.len]; exact (List.getElem?_eq_some_iff.mp hb).1
  obtain ⟨m, a', ha', wa, -⟩ := h.own i _ (List.getElem?_eq_getElem hi)
  obtain ⟨m', b', hb', wb, -⟩ := h.own j _ (List.getElem?_eq_getElem hj)
  obtain rfl : a = a' := Option.some.inj (ha.symm.trans ha')
  obtain rfl : b = b' := Option.some.inj (hb.symm.trans hb')
  have p := within_access wa hl
  have q := within_access wb hl'
  rcases hw with rfl | rfl
  · have := h₀.apart i j hi hj hij l (p.2 rfl)
    tauto
  · have := h₀.apart j i hj hi (Ne.symm hij) l (q.2 rfl)
    tauto

/-- the end of a run -/
theorem Inv.finished {T W : ℕ → Set Loc} {c₀ c : Config α ρ} (h : Inv T W c₀ c) (hf : Finished c) {i : ℕ} {a₀ : Act α ρ}
    (hi : c₀.threads[i]? = some a₀) :
    c.threads[i]? = some (.stop (a₀.finish c₀.mem).2.1 (a₀.finish c₀.mem).2.2.1) ∧
    (∀ l, l ∈ T i ∨ l ∈ W i → Same l c.mem (a₀.finish c₀.mem).1) ∧ pieces i c.console = (a₀.finish c₀.mem).2.2.2 := by
  obtain ⟨m, a, ha, _, gs, g1, g2, g3, g4⟩ := h.own i a₀ hi
  obtain ⟨outs, e, rfl⟩ := hf a (List.mem_of_getElem? ha)
  rw [← g1, ← g2, ← g3, ← g4]
  exact ⟨ha, gs, by simp [Act.finish]⟩

/-! ## every schedule can be continued to the end -/

def Act.length (m : Mem α) : Act α ρ → ℕ
  | .stop _ _ => 0
  | .readVar i k => (k (m.vars i)).length m + 1
  | .writeVar i x k => k.length { m with vars := fun j => if j = i then x else m.vars j } + 1
  | .readLevel k => (k m.level).length m + 1
  | .writeLevel n k => k.length { m with level := n } + 1
  | .isOpen f k => (k (m.file f).isOpen).length m + 1
  | .openFile f k => k.length (m.setFile f ⟨true, []⟩) + 1
  | .closeFile f k => k.length (m.setFile f ⟨false, (m.file f).lines⟩) + 1
  | .writeFile f text k => k.length (if (m.file f).isOpen then m.setFile f ⟨true, (m.file f).lines ++ [text]⟩ else m) + 1
  | .stamp k => k.length m + 1
  | .print _ k => k.length m + 1

theorem Act.stops (m : Mem α) (a : Act α ρ) : ∃ n, ∃ m' outs e, ((fun r : Mem α × Act α ρ => ((r.2.step r.1).1, (r.2.step r.1).2.1))^[n])
    (m, a) = (m', .stop outs e) := by
  obtain ⟨n, hn⟩ : ∃ n, a.length m = n := ⟨_, rfl⟩
  induction n generalizing m a with
  | zero => cases a <;> simp [Act.length] at hn; exact ⟨0, _, _, _, rfl⟩
  | succ n ih =>
    have : (a.step m).2.1.length (a.step m).1 = n := by cases a <;> simp_all [Act.length, Act.step]
    obtain ⟨k, h⟩ := ih _ _ this
    exact ⟨k + 1, by simpa using h⟩

theorem run_append (c : Config α ρ) (s t : List ℕ) : c.run (s ++ t) = (c.run s).run t := by
  induction s generalizing c with
  | nil => rfl
  | cons i s ih => exact ih _

theorem run_replicate {c : Config α ρ} {i : ℕ} {a : Act α ρ} (ha : c.threads[i]? = some a) (n : ℕ) :
    (c.run (List.replicate n i)).threads =
      c.threads.set i (((fun r : Mem α × Act α ρ => ((r.2.step r.1).1, (r.2.step r.1).2.1))^[n]) (c.mem, a)).2 := by
  induction n generalizing c a with
  | zero =>
    show c.threads = _
    apply List.ext_getElem?
    intro j
    by_cases h : i = j
    · subst h
      simp [(List.getElem?_eq_some_iff.mp ha).1, (List.getElem?_eq_some_iff.mp ha).2]
    · rw [List.getElem?_set_ne h]
  | succ n ih =>
    have hi := (List.getElem?_eq_some_iff.mp ha).1
    show ((c.step i).run (List.replicate n i)).threads = _
    have e : c.step i = ⟨(a.step c.mem).1, c.threads.set i (a.step c.mem).2.1, c.console ++ (a.step c.mem).2.2.map fun s => (i, s)⟩ := by
      simp [Config.step, ha]
    rw [e, ih (a := (a.step c.mem).2.1) (by simp [hi])]
    simp

theorem can_finish (c : Config α ρ) : ∃ sch, Finished (c.run sch) := by
  have key : ∀ n, ∃ sch, (c.run sch).threads.length = c.threads.length ∧
      ∀ i : ℕ, i < n → ∀ a : Act α ρ, (c.run sch).threads[i]? = some a → ∃ outs e, a = .stop outs e := by
    intro n
    induction n with
    | zero => exact ⟨[], rfl, by simp⟩
    | succ n ih =>
      obtain ⟨sch, hl, h⟩ := ih
      cases hn : (c.run sch).threads[n]? with
      | none =>
        refine ⟨sch, hl, fun i hi a ha => ?_⟩
        rcases Nat.lt_succ_iff_lt_or_eq.mp hi with h' | rfl
        · exact h i h' a ha
        · rw [hn] at ha
          cases ha
      | some a =>
        obtain ⟨k, m', outs, e, hk⟩ := a.stops (c.run sch).mem
        refine ⟨sch ++ List.replicate k n, ?_, fun i hi b hb => ?_⟩
        · rw [run_append, run_replicate hn]
          simpa using hl
        · rw [run_append, run_replicate hn, hk] at hb
          rcases Nat.lt_succ_iff_lt_or_eq.mp hi with h' | rfl
          · rw [List.getElem?_set_ne (by omega)] at hb
            exact h i h' b hb
          · have := (List.getElem?_eq_some_iff.mp hn).1
            simp [this] at hb
            exact ⟨outs, e, hb.symm⟩
  obtain ⟨sch, hl, h⟩ := key c.threads.length
  refine ⟨sch, fun a ha => ?_⟩
  obtain ⟨i, hi, rfl⟩ := List.mem_iff_getElem.mp ha
  exact h i (by omega) _ (List.getElem?_eq_getElem hi)

/-! ## the logger and the calls -/

/-- the pieces of a line -/
def linePieces (k : LogKind) (text : String) : List String :=
  ["[", Logger.setw 20 (Logger.colorText k.head k.code), "]", "", " : ", Logger.colorText text k.code, "\n"]

open Classical in
/-- the pieces of the lines of messages -/
noncomputable def allPieces (enabled : Bool) (n : ℕ) (said : List (LogKind × String)) : List String :=
  (said.filter fun m => decide (Printed enabled n m.1)).flatMap fun m => linePieces m.1 m.2

/-- prepend to the console -/
def pre (l : List String) (r : Mem α × List ρ × Option Err × List String) : Mem α × List ρ × Option Err × List String :=
  (r.1, r.2.1, r.2.2.1, l ++ r.2.2.2)

@[simp] theorem pre_nil (r : Mem α × List ρ × Option Err × List String) : pre [] r = r := rfl

theorem pre_pre (l l' : List String) (r : Mem α × List ρ × Option Err × List String) : pre l (pre l' r) = pre (l ++ l') r := by
  simp [pre]

variable {T W : Set Loc} {m : Mem α}

theorem init_within {enabled : Bool} {k : Act α ρ} (hT : .level ∈ T) (hf : enabled = true → ¬ FilesOn m.level) (hk : k.Within T W m) :
    (init enabled k).Within T W m := by
  cases enabled
  · exact hk
  · have := hf rfl
    simp only [FilesOn, not_or, Bool.not_eq_true] at this
    simp [init, initFile, Act.Within, fileLevel, this, hT, hk]

theorem init_finish {enabled : Bool} {k : Act α ρ} (hf : enabled = true → ¬ FilesOn m.level) :
    (init enabled k).finish m = k.finish m := by
  cases enabled
  · rfl
  · have := hf rfl
    simp only [FilesOn, not_or, Bool.not_eq_true] at this
    simp [init, initFile, Act.finish, fileLevel, this]

theorem close_within {enabled : Bool} {k : Act α ρ} (hT : .level ∈ T) (hf : enabled = true → ¬ FilesOn m.level) (hk : k.Within T W m) :
    (close enabled k).Within T W m := by
  cases enabled
  · exact hk
  · have := hf rfl
    simp only [FilesOn, not_or, Bool.not_eq_true] at this
    simp [close, closeOne, Act.Within, fileLevel, this, hT, hk]

theorem close_finish {enabled : Bool} {k : Act α ρ} (hf : enabled = true → ¬ FilesOn m.level) :
    (close enabled k).finish m = k.finish m := by
  cases enabled
  · rfl
  · have := hf rfl
    simp only [FilesOn, not_or, Bool.not_eq_true] at this
    simp [close, closeOne, Act.finish, fileLevel, this]

theorem toFile_within {c : LogKind} {text : String} {k : Act α ρ} (hT : .level ∈ T) (hf : ¬ FilesOn m.level) (hk : k.Within T W m) :
    (toFile c text k).Within T W m := by
  simp only [FilesOn, not_or, Bool.not_eq_true] at hf
  cases c <;> simp [toFile, Act.Within, fileLevel, LogKind.file, hf, hT, hk]

theorem toFile_finish {c : LogKind} {text : String} {k : Act α ρ} (hf : ¬ FilesOn m.level) :
    (toFile c text k).finish m = k.finish m := by
  simp only [FilesOn, not_or, Bool.not_eq_true] at hf
  cases c <;> simp [toFile, Act.finish, fileLevel, LogKind.file, hf]

theorem toConsole_within {c : LogKind} {text : String} {k : Act α ρ} (hT : .level ∈ T)
    (hc : has c.level m.level = true → has .time_stamp m.level = false) (hk : k.Within T W m) : (toConsole c text k).Within T W m := by
  refine ⟨hT, ?_⟩
  by_cases h : has c.level m.level = true
  · simp [h, consoleLine, getTimeStamp, Act.Within, hc h, hT, hk]
  · simp [h, hk]

theorem toConsole_finish {c : LogKind} {text : String} {k : Act α ρ}
    (hc : has c.level m.level = true → has .time_stamp m.level = false) :
    (toConsole c text k).finish m = if has c.level m.level = true then pre (linePieces c text) (k.finish m) else k.finish m := by
  unfold toConsole
  by_cases h : has c.level m.level = true
  · simp [h, consoleLine, getTimeStamp, Act.finish, hc h, pre, linePieces, stampText]
  · simp [h, Act.finish]

theorem not_loud {enabled : Bool} {n : ℕ} {c : LogKind} (h : ¬ Loud enabled n c) :
    (enabled = true → ¬ FilesOn n) ∧ (Printed enabled n c → has .time_stamp n = false) := by
  unfold Loud at h
  push Not at h
  exact ⟨h.1, fun hp => by
    by_contra h'
    exact h.2 (by simpa using h') hp⟩

theorem message_within {enabled : Bool} {c : LogKind} {text : String} {k : Act α ρ} (hT : .level ∈ T) (h : ¬ Loud enabled m.level c)
    (hk : k.Within T W m) : (message enabled c text k).Within T W m := by
  obtain ⟨h1, h2⟩ := not_loud h
  refine init_within hT h1 ?_
  cases enabled
  · cases c
    all_goals try exact hk
    exact toConsole_within hT (fun h' => h2 ⟨h', .inr rfl⟩) (close_within hT h1 hk)
  · cases c
    all_goals refine toConsole_within hT (fun h' => h2 ⟨h', .inl rfl⟩) ?_
    all_goals refine toFile_within hT (h1 rfl) ?_
    all_goals first | exact hk | exact close_within hT h1 hk

theorem message_finish {enabled : Bool} {c : LogKind} {text : String} {k : Act α ρ} (h : ¬ Loud enabled m.level c) :
    (message enabled c text k).finish m = pre (allPieces enabled m.level [(c, text)]) (k.finish m) := by
  obtain ⟨h1, h2⟩ := not_loud h
  unfold message
  rw [init_finish h1]
  have e : allPieces enabled m.level [(c, text)] = if has c.level m.level = true ∧ (enabled = true ∨ c = .terminating)
      then linePieces c text else [] := by
    unfold allPieces Printed
    split <;> simp_all
  rw [e]
  cases enabled
  · cases c
    all_goals simp
    rw [toConsole_finish fun h' => h2 ⟨h', .inr rfl⟩, close_finish h1]
    split <;> simp_all
  · cases c
    all_goals simp only [if_true, true_or, and_true]
    all_goals rw [toConsole_finish fun h' => h2 ⟨h', .inl rfl⟩, toFile_finish (h1 rfl)]
    all_goals try rw [close_finish h1]
    all_goals split <;> simp_all

theorem allPieces_append (enabled : Bool) (n : ℕ) (a b : List (LogKind × String)) :
    allPieces enabled n (a ++ b) = allPieces enabled n a ++ allPieces enabled n b := by
  simp [allPieces]

theorem messages_within {enabled : Bool} {k : Act α ρ} (hT : .level ∈ T) (hk : k.Within T W m) :
    ∀ {l : List (LogKind × String)}, (∀ x ∈ l, ¬ Loud enabled m.level x.1) → (messages enabled l k).Within T W m
  | [], _ => hk
  | (_, _) :: _, h => message_within hT (h _ List.mem_cons_self) (messages_within hT hk fun x hx => h x (List.mem_cons_of_mem _ hx))

theorem messages_finish {enabled : Bool} {k : Act α ρ} :
    ∀ {l : List (LogKind × String)}, (∀ x ∈ l, ¬ Loud enabled m.level x.1) →
      (messages enabled l k).finish m = pre (allPieces enabled m.level l) (k.finish m)
  | [], _ => rfl
  | (c, text) :: l, h => by
    show (message enabled c text (messages enabled l k)).finish m = _
    rw [message_finish (h _ List.mem_cons_self), messages_finish fun x hx => h x (List.mem_cons_of_mem _ hx), pre_pre, ← allPieces_append]
    rfl

theorem readVars_within {k : List α → Act α ρ} : ∀ {is : List ℕ}, (∀ i ∈ is, Loc.var i ∈ T) → (k (is.map m.vars)).Within T W m →
    (readVars is k).Within T W m
  | [], _, h => h
  | i :: _, hi, h => ⟨hi i List.mem_cons_self, readVars_within (fun j hj => hi j (List.mem_cons_of_mem _ hj)) h⟩

theorem readVars_finish {k : List α → Act α ρ} : ∀ {is : List ℕ}, (readVars is k).finish m = (k (is.map m.vars)).finish m
  | [] => rfl
  | _ :: is => readVars_finish (is := is)

theorem writeVars_within {k : Act α ρ} : ∀ {is : List ℕ} {xs : List α} {m : Mem α}, (∀ i ∈ is, Loc.var i ∈ W) →
    k.Within T W { m with vars := assign m.vars is xs } → (writeVars is xs k).Within T W m
  | [], _, _, _, h => h
  | _ :: _, [], _, _, h => h
  | i :: _, _ :: _, _, hi, h => ⟨hi i List.mem_cons_self, writeVars_within (fun j hj => hi j (List.mem_cons_of_mem _ hj)) h⟩

theorem writeVars_finish {k : Act α ρ} : ∀ {is : List ℕ} {xs : List α} {m : Mem α},
    (writeVars is xs k).finish m = k.finish { m with vars := assign m.vars is xs }
  | [], _, _ => rfl
  | _ :: _, [], _ => rfl
  | _ :: is, _ :: xs, _ => writeVars_finish (is := is) (xs := xs)

theorem code_alone {enabled : Bool} (hT : .level ∈ T) : ∀ {p : List (Stmt α ρ)} {m : Mem α} {outs : List ρ}, (∀ v ∈ uses p, Loc.var v ∈ T) →
    (∀ v ∈ changes p, Loc.var v ∈ W) → LeavesLevel p → (∀ x ∈ (alone m.vars outs p).said, ¬ Loud enabled m.level x.1) →
    (code enabled outs p).Within T W m ∧
    (code enabled outs p).finish m = ({ m with vars := (alone m.vars outs p).vars }, (alone m.vars outs p).outs,
      (alone m.vars outs p).error, allPieces enabled m.level (alone m.vars outs p).said)
  | [], m, outs, _, _, _, _ => ⟨trivial, by simp [code, Act.finish, alone, allPieces]⟩
  | .setLevel n :: p, m, outs, _, _, hl, _ => absurd List.mem_cons_self (hl n)
  | .call c caught :: p, m, outs, hu, hc, hl, hq => by
    have hu' : ∀ v ∈ uses p, Loc.var v ∈ T := fun v ⟨c', b, h1, h2⟩ => hu v ⟨c', b, List.mem_cons_of_mem _ h1, h2⟩
    have hc' : ∀ v ∈ changes p, Loc.var v ∈ W := fun v ⟨c', b, h1, h2⟩ => hc v ⟨c', b, List.mem_cons_of_mem _ h1, h2⟩
    have hl' : LeavesLevel p := fun n h => hl n (List.mem_cons_of_mem _ h)
    have ha : ∀ v ∈ c.args, Loc.var v ∈ T := fun v h => hu v ⟨c, caught, List.mem_cons_self, .inl h⟩
    have ht : ∀ v ∈ c.targets, Loc.var v ∈ W := fun v h => hc v ⟨c, caught, List.mem_cons_self, h⟩
    unfold code
    rw [readVars_finish]
    rcases hr : c.run (c.args.map m.vars) with ⟨said, out⟩
    cases out with
    | ok r =>
      obtain ⟨ys, zs⟩ := r
      have ea : alone m.vars outs (.call c caught :: p) =
          (alone (assign m.vars c.targets ys) (outs ++ zs) p).after said := by simp [alone, hr]
      rw [ea] at hq ⊢
      simp only [Solo.after, List.mem_append] at hq ⊢
      have ih := code_alone (enabled := enabled) hT (p := p) (m := { m with vars := assign m.vars c.targets ys }) (outs := outs ++ zs)
        hu' hc' hl' (fun x hx => hq x (.inr hx))
      refine ⟨readVars_within ha ?_, ?_⟩
      · rw [hr]
        exact messages_within hT (writeVars_within ht ih.1) fun x hx => hq x (.inl hx)
      · rw [messages_finish fun x hx => hq x (.inl hx)]
        show pre _ (Act.finish m (writeVars _ _ _)) = _
        rw [writeVars_finish, ih.2, allPieces_append]
        rfl
    | error e =>
      by_cases he : e = .throws
      · subst he
        have ea : alone m.vars outs (.call c caught :: p) =
            (if caught then alone m.vars outs p else ⟨m.vars, outs, some .throws, []⟩).after said := by simp [alone, hr]
        rw [ea] at hq ⊢
        simp only [Solo.after, List.mem_append] at hq ⊢
        have ih : (if caught then code enabled outs p else .stop outs (some .throws)).Within T W m ∧
            (if caught then code enabled outs p else .stop outs (some .throws)).finish m =
              ({ m with vars := (if caught then alone m.vars outs p else ⟨m.vars, outs, some .throws, []⟩ : Solo α ρ).vars },
                (if caught then alone m.vars outs p else ⟨m.vars, outs, some .throws, []⟩ : Solo α ρ).outs,
                (if caught then alone m.vars outs p else ⟨m.vars, outs, some .throws, []⟩ : Solo α ρ).error,
                allPieces enabled m.level (if caught then alone m.vars outs p else ⟨m.vars, outs, some .throws, []⟩ : Solo α ρ).said) := by
          cases caught
          · exact ⟨trivial, by simp [Act.finish, allPieces]⟩
          · exact code_alone hT hu' hc' hl' fun x hx => hq x (.inr hx)
        have hq1 : ∀ x ∈ said, ¬ Loud enabled m.level x.1 := fun x hx => hq x (.inl hx)
        refine ⟨readVars_within ha ?_, ?_⟩
        · rw [hr]
          exact messages_within hT ih.1 hq1
        · rw [messages_finish hq1]
          show pre _ (Act.finish m (if caught then code enabled outs p else .stop outs (some .throws))) = _
          rw [ih.2, allPieces_append]
          rfl
      · have ea : alone m.vars outs (.call c caught :: p) = ⟨m.vars, outs, some e, said⟩ := by
          cases e <;> simp_all [alone]
        rw [ea] at hq ⊢
        have ek : ending c caught outs (fun outs => code enabled outs p) (.error e) = .stop outs (some e) := by
          cases e <;> first | rfl | exact absurd rfl he
        refine ⟨readVars_within ha ?_, ?_⟩
        · rw [hr]
          refine messages_within hT ?_ hq
          rw [ek]
          trivial
        · rw [messages_finish hq]
          rw [ek]
          simp [Act.finish, pre]

end Bezman.Threads
