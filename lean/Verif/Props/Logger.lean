import Verif.Proofs.Logger

/-! # Properties: the logger -/

namespace Bezman.Props
open Spec Logger

/-! ## C55 -/

/-- C55. The level in force is the one set by the last `SetOutputLevel`. -/
theorem C55_level (enabled : Bool) (c : Call) (s : State) :
    (call enabled c s).1.outputlevel = (newLevel c).getD s.outputlevel := by
  have hopen : ∀ f : FileId, (init enabled s).outputlevel.testBit (fileBit f) = true → enabled = true →
      ((init enabled s).file f).isOpen = true := fun f h he => init_open he (by simpa using h)
  cases c <;> simp only [call, newLevel, Option.getD_some, Option.getD_none, init_level]
  · rw [(message_spec enabled 2 .warnings rfl .warning _ _ _ _ _ _ (hopen _)).1, init_level]
  · rw [(message_spec enabled 0 .userinfo rfl .log _ _ _ _ _ _ (hopen _)).1, init_level]
  · rw [(message_spec enabled 3 .logging rfl .log _ _ _ _ _ _ (hopen _)).1, init_level]
  · rw [(message_spec enabled 4 .logging_verbose rfl .log _ _ _ _ _ _ (hopen _)).1, init_level]
  · rw [(message_spec enabled 1 .errors rfl .error _ _ _ _ _ _ (hopen _)).1, init_level]
  · rw [(terminatingError_spec enabled _ _ _ (hopen _)).1, init_level]

/-- C55. The level made from a list of options has a bit exactly if one of the options
stands for it. -/
theorem C55_options (options : List OutputLevel) (b : ℕ) :
    (options.foldl (fun (l : ℕ) (o : OutputLevel) => l ||| o.toNat) 0).testBit b = options.any (optionBit b) := by
  have gen : ∀ l : ℕ, (options.foldl (fun (l : ℕ) (o : OutputLevel) => l ||| o.toNat) l).testBit b = (l.testBit b || options.any (optionBit b)) := by
    induction options with
    | nil => intro l; simp
    | cons o os ih =>
      intro l
      rw [List.foldl_cons, ih, Nat.testBit_or, List.any_cons, Bool.or_assoc]
      congr 2
      have h2 : ∀ i : ℕ, (2 ^ i).testBit b = (b == i) := by
        intro i
        rw [Nat.testBit_two_pow]
        by_cases h : b = i
        · simp [h]
        · simp [h, Ne.symm h]
      cases o
      · exact Nat.zero_testBit b
      · exact h2 0
      · exact h2 1
      · exact h2 2
      · exact h2 3
      · exact h2 4
      · exact h2 5
      · exact h2 6
      · exact h2 7
      · exact h2 8
      · simp only [OutputLevel.toNat, optionBit]
        rw [show (511 : ℕ) = 2 ^ 9 - 1 by decide, Nat.testBit_two_pow_sub_one]
  simpa using gen 0

/-- C55. A call writes its text to the console exactly if the bit of the level is set, and
writes nothing else there. -/
theorem C55_console (enabled : Bool) (c : Call) (s : State) :
    ∃ new : List String, (call enabled c s).1.console = s.console ++ new ∧
      List.Forall₂ Shows new (if writesConsole enabled s.outputlevel c then (text c).toList else []) := by
  have hopen : ∀ f : FileId, (init enabled s).outputlevel.testBit (fileBit f) = true → enabled = true →
      ((init enabled s).file f).isOpen = true := fun f h he => init_open he (by simpa using h)
  have aux : ∀ (b : Bool) (line t : String), Shows line t →
      List.Forall₂ Shows (if b then [line] else []) (if b then [t] else []) := by
    intro b line t h
    cases b
    · exact List.Forall₂.nil
    · exact List.Forall₂.cons h List.Forall₂.nil
  cases c
  · exact ⟨[], by simp [call], by simp [writesConsole, consoleBit]⟩
  · exact ⟨[], by simp [call], by simp [writesConsole, consoleBit]⟩
  all_goals simp only [call, text, Option.toList_some, writesConsole, consoleBit, Option.any_some, isTerminating, Bool.or_false, Bool.or_true, Bool.true_and]
  · refine ⟨_, (message_spec enabled 2 .warnings rfl .warning _ _ _ _ _ _ (hopen _)).2.1.trans (by rw [init_console, init_level]), ?_⟩
    exact aux _ _ _ (consoleLine_shows _ _ _ _ _)
  · refine ⟨_, (message_spec enabled 0 .userinfo rfl .log _ _ _ _ _ _ (hopen _)).2.1.trans (by rw [init_console, init_level]), ?_⟩
    exact aux _ _ _ (consoleLine_shows _ _ _ _ _)
  · refine ⟨_, (message_spec enabled 3 .logging rfl .log _ _ _ _ _ _ (hopen _)).2.1.trans (by rw [init_console, init_level]), ?_⟩
    exact aux _ _ _ (consoleLine_shows _ _ _ _ _)
  · refine ⟨_, (message_spec enabled 4 .logging_verbose rfl .log _ _ _ _ _ _ (hopen _)).2.1.trans (by rw [init_console, init_level]), ?_⟩
    exact aux _ _ _ (consoleLine_shows _ _ _ _ _)
  · refine ⟨_, (message_spec enabled 1 .errors rfl .error _ _ _ _ _ _ (hopen _)).2.1.trans (by rw [init_console, init_level]), ?_⟩
    exact aux _ _ _ (consoleLine_shows _ _ _ _ _)
  · refine ⟨_, (terminatingError_spec enabled _ _ _ (hopen _)).2.1.trans (by rw [init_console, init_level]), ?_⟩
    exact aux _ _ _ (consoleLine_shows _ _ _ _ _)

/-- C55. A call appends its text to a file exactly if the file belongs to the call and its
bit of the level is set. Nothing else changes in the file, except that a stream that is not
open is opened, which empties the file. -/
theorem C55_file (enabled : Bool) (c : Call) (s : State) (f : FileId) :
    ∃ old new : List String, ((call enabled c s).1.file f).lines = old ++ new ∧
      (old = (s.file f).lines ∨ (old = [] ∧ (s.file f).isOpen = false)) ∧
      List.Forall₂ Shows new (if writesFile enabled s.outputlevel f c then (text c).toList else []) := by
  have hopen : ∀ f : FileId, (init enabled s).outputlevel.testBit (fileBit f) = true → enabled = true →
      ((init enabled s).file f).isOpen = true := fun f h he => init_open he (by simpa using h)
  have hold : ((init enabled s).file f).lines = (s.file f).lines ∨ (((init enabled s).file f).lines = [] ∧ (s.file f).isOpen = false) := by
    rw [init_file]
    split
    · rename_i h; exact Or.inr ⟨rfl, h.2.2⟩
    · exact Or.inl rfl
  have hset : ∀ n, ((init enabled { (init enabled s) with outputlevel := n }).file f).lines = (s.file f).lines ∨
      (((init enabled { (init enabled s) with outputlevel := n }).file f).lines = [] ∧ (s.file f).isOpen = false) := by
    intro n
    rw [init_file]
    split
    · rename_i h
      refine Or.inr ⟨rfl, ?_⟩
      have h2 := h.2.2
      simp only at h2
      rw [init_file] at h2
      split at h2
      · cases h2
      · exact h2
    · exact hold
  have hmsg : ∀ (g : FileId) (line t : String), Shows line t →
      ∃ old new : List String, (if enabled = true ∧ f = g ∧ (init enabled s).outputlevel.testBit (fileBit g) = true then
          (⟨true, ((init enabled s).file f).lines ++ [line]⟩ : File) else (init enabled s).file f).lines = old ++ new ∧
        (old = (s.file f).lines ∨ (old = [] ∧ (s.file f).isOpen = false)) ∧
        List.Forall₂ Shows new (if (enabled && some g == some f && s.outputlevel.testBit (fileBit f)) then [t] else []) := by
    intro g line t hsh
    rw [init_level]
    by_cases h : enabled = true ∧ f = g ∧ s.outputlevel.testBit (fileBit g) = true
    · rw [if_pos h]
      refine ⟨_, [line], rfl, hold, ?_⟩
      obtain ⟨h1, rfl, h3⟩ := h
      rw [if_pos (by simp [h1, h3])]
      exact List.Forall₂.cons hsh List.Forall₂.nil
    · rw [if_neg h]
      refine ⟨_, [], (List.append_nil _).symm, hold, ?_⟩
      rw [if_neg]
      · exact List.Forall₂.nil
      · intro h2
        simp at h2
        exact h ⟨h2.1.1, h2.1.2.symm, by rw [h2.1.2]; exact h2.2⟩
  have hterm : ∀ (line t : String), Shows line t →
      List.Forall₂ Shows (if enabled = true ∧ f = FileId.error ∧ s.outputlevel.testBit (fileBit f) = true then [line] else [])
        (if (enabled && some FileId.error == some f && s.outputlevel.testBit (fileBit f)) then [t] else []) := by
    intro line t hsh
    by_cases h : enabled = true ∧ f = FileId.error ∧ s.outputlevel.testBit (fileBit f) = true
    · rw [if_pos h, if_pos (by obtain ⟨h1, rfl, h3⟩ := h; simp [h1, h3])]
      exact List.Forall₂.cons hsh List.Forall₂.nil
    · rw [if_neg h, if_neg]
      · exact List.Forall₂.nil
      · intro h2
        simp at h2
        exact h ⟨h2.1.1, h2.1.2.symm, h2.2⟩
  cases c
  · exact ⟨_, [], (List.append_nil _).symm, hset _, by simp [writesFile, fileOf]⟩
  · exact ⟨_, [], (List.append_nil _).symm, hset _, by simp [writesFile, fileOf]⟩
  all_goals simp only [call, text, Option.toList_some, writesFile, fileOf]
  · rw [(message_spec enabled 2 .warnings rfl .warning _ _ _ _ _ _ (hopen _)).2.2]
    exact hmsg _ _ _ (fileLine_shows _ _ _ _)
  · rw [(message_spec enabled 0 .userinfo rfl .log _ _ _ _ _ _ (hopen _)).2.2]
    exact hmsg _ _ _ (fileLine_shows _ _ _ _)
  · rw [(message_spec enabled 3 .logging rfl .log _ _ _ _ _ _ (hopen _)).2.2]
    exact hmsg _ _ _ (fileLine_shows _ _ _ _)
  · rw [(message_spec enabled 4 .logging_verbose rfl .log _ _ _ _ _ _ (hopen _)).2.2]
    exact hmsg _ _ _ (fileLine_shows _ _ _ _)
  · rw [(message_spec enabled 1 .errors rfl .error _ _ _ _ _ _ (hopen _)).2.2]
    exact hmsg _ _ _ (fileLine_shows _ _ _ _)
  · rw [(terminatingError_spec enabled _ _ _ (hopen _)).2.2]
    refine ⟨_, _, rfl, hold, ?_⟩
    rw [init_level]
    exact hterm _ _ (fileLine_shows _ _ _ _)

/-- C55. `TerminatingError` raises an exception at every level, no other call does. -/
theorem C55_throws (enabled : Bool) (c : Call) (s : State) :
    (call enabled c s).2 = if isTerminating c then some .throws else none := by
  cases c <;> rfl

/-- C55, for whole histories: the console shows exactly the texts that the level in force
admits, in the order of the calls. -/
theorem C55_console_history (enabled : Bool) (disk : FileId → List String) (h : List Call) :
    List.Forall₂ Shows (run enabled h (initial disk)).console (consoleTexts enabled 39 h) := by
  have gen : ∀ (h : List Call) (s : State) (ts : List String), List.Forall₂ Shows s.console ts →
      List.Forall₂ Shows (run enabled h s).console (ts ++ consoleTexts enabled s.outputlevel h) := by
    intro h
    induction h with
    | nil => intro s ts hs; simpa [run, consoleTexts] using hs
    | cons c cs ih =>
      intro s ts hs
      obtain ⟨new, h1, h2⟩ := C55_console enabled c s
      unfold run consoleTexts
      rw [← List.append_assoc, ← C55_level enabled c s]
      apply ih
      rw [h1]
      exact List.rel_append hs h2
  exact gen h (initial disk) [] List.Forall₂.nil

/-! ## C56 -/

/-- the state of a file that has been opened and not closed since -/
theorem call_open (enabled : Bool) (c : Call) (s : State) (f : FileId) (ho : (s.file f).isOpen = true)
    (hc : (isTerminating c && s.outputlevel.testBit (fileBit f)) = false) : ((call enabled c s).1.file f).isOpen = true := by
  have hopen : ∀ f : FileId, (init enabled s).outputlevel.testBit (fileBit f) = true → enabled = true →
      ((init enabled s).file f).isOpen = true := fun f h he => init_open he (by simpa using h)
  have hi : ∀ s : State, (s.file f).isOpen = true → ((init enabled s).file f).isOpen = true := by
    intro s ho
    rw [init_file]
    split
    · rfl
    · exact ho
  have hm : ∀ (g : FileId) (line : String), (if enabled = true ∧ f = g ∧ (init enabled s).outputlevel.testBit (fileBit g) = true then
          (⟨true, ((init enabled s).file f).lines ++ [line]⟩ : File) else (init enabled s).file f).isOpen = true := by
    intro g line
    split
    · rfl
    · exact hi s ho
  cases c
  · exact hi _ (hi s ho)
  · exact hi _ (hi s ho)
  all_goals simp only [call]
  · rw [(message_spec enabled 2 .warnings rfl .warning _ _ _ _ _ _ (hopen _)).2.2]; exact hm _ _
  · rw [(message_spec enabled 0 .userinfo rfl .log _ _ _ _ _ _ (hopen _)).2.2]; exact hm _ _
  · rw [(message_spec enabled 3 .logging rfl .log _ _ _ _ _ _ (hopen _)).2.2]; exact hm _ _
  · rw [(message_spec enabled 4 .logging_verbose rfl .log _ _ _ _ _ _ (hopen _)).2.2]; exact hm _ _
  · rw [(message_spec enabled 1 .errors rfl .error _ _ _ _ _ _ (hopen _)).2.2]; exact hm _ _
  · rw [(terminatingError_spec enabled _ _ _ (hopen _)).2.2]
    simp only [isTerminating, Bool.true_and] at hc
    simp only [init_level, hc, Bool.false_eq_true, and_false, if_false]
    exact hi s ho

/-- C56, the part that holds. Once a file is open, it keeps its lines and receives all
admitted messages, as long as no `TerminatingError` is raised while the file is enabled.
Missing: histories with such a `TerminatingError`. -/
theorem C56_kept_partial (enabled : Bool) (h : List Call) (s : State) (f : FileId) (ho : (s.file f).isOpen = true)
    (hh : raisedWhileEnabled f s.outputlevel h = false) :
    ∃ new, ((run enabled h s).file f).lines = (s.file f).lines ++ new ∧
      List.Forall₂ Shows new (fileTexts enabled f s.outputlevel h) := by
  induction h generalizing s with
  | nil => exact ⟨[], by simp [run], List.Forall₂.nil⟩
  | cons c cs ih =>
    obtain ⟨old, new, h1, h2, h3⟩ := C55_file enabled c s f
    have hold : old = (s.file f).lines := by
      rcases h2 with h2 | h2
      · exact h2
      · rw [ho] at h2; cases h2.2
    unfold raisedWhileEnabled at hh
    rw [Bool.or_eq_false_iff] at hh
    obtain ⟨new2, h4, h5⟩ := ih (call enabled c s).1 (call_open enabled c s f ho hh.1)
      (by rw [C55_level]; exact hh.2)
    refine ⟨new ++ new2, ?_, ?_⟩
    · unfold run
      rw [h4, h1, hold, List.append_assoc]
    · unfold fileTexts
      rw [← C55_level enabled c s]
      exact List.rel_append h3 h5

/-- C56. `TerminatingError` itself keeps the lines, adds its message to the error file if
the level admits it, and closes the enabled files. -/
theorem C56_terminating_saves (enabled : Bool) (t now : String) (s : State) (f : FileId) (ho : (s.file f).isOpen = true) :
    ∃ new, ((call enabled (.terminating t now) s).1.file f).lines = (s.file f).lines ++ new ∧
      List.Forall₂ Shows new (if writesFile enabled s.outputlevel f (.terminating t now) then [t] else []) ∧
      (enabled = true → s.outputlevel.testBit (fileBit f) = true → ((call enabled (.terminating t now) s).1.file f).isOpen = false) := by
  obtain ⟨old, new, h1, h2, h3⟩ := C55_file enabled (.terminating t now) s f
  have hold : old = (s.file f).lines := by
    rcases h2 with h2 | h2
    · exact h2
    · rw [ho] at h2; cases h2.2
  refine ⟨new, by rw [h1, hold], h3, fun he hb => ?_⟩
  simp only [call]
  rw [(terminatingError_spec enabled t now _ (fun h he => init_open he (by simpa using h))).2.2]
  simp [he, hb]

/-- C56 fails. After a `TerminatingError` the next call, whatever it is, empties every
enabled file: afterwards it contains nothing but the message of that call. -/
theorem C56_fails_truncates (t now : String) (c : Call) (s : State) (f : FileId) (hb : s.outputlevel.testBit (fileBit f) = true) :
    List.Forall₂ Shows ((run true [.terminating t now, c] s).file f).lines
      (if writesFile true s.outputlevel f c then (text c).toList else []) := by
  have hl : (call true (.terminating t now) s).1.outputlevel = s.outputlevel := C55_level true (.terminating t now) s
  have hc : ((call true (.terminating t now) s).1.file f).isOpen = false := by
    simp only [call]
    rw [(terminatingError_spec true t now _ (fun h he => init_open he (by simpa using h))).2.2]
    simp [hb]
  unfold run run run
  set s1 := (call true (.terminating t now) s).1 with hs1
  have hi : ((init true s1).file f) = ⟨true, []⟩ := by
    rw [init_file, if_pos ⟨rfl, by rw [hl]; exact hb, hc⟩]
  -- the call sees an empty open file
  have key : call true c s1 = call true c (init true s1) := by
    have : init true (init true s1) = init true s1 := init_init true s1
    unfold call
    rw [this]
  rw [key]
  obtain ⟨old, new, h1, h2, h3⟩ := C55_file true c (init true s1) f
  have hold : old = [] := by
    rcases h2 with h2 | h2
    · rw [h2, hi]
    · exact h2.1
  rw [h1, hold, List.nil_append]
  rw [init_level, hl] at h3
  exact h3

/-- C56 fails: a concrete history. The error is in the file before the last call and gone
after it. -/
theorem C56_fails : ∃ h : List Call, ∃ c : Call,
    ((run true h (initial fun _ => [])).file .error).lines ≠ [] ∧
    ((run true (h ++ [c]) (initial fun _ => [])).file .error).lines = [] := by
  refine ⟨[.setOptions [.error_file], .error "first" "", .terminating "second" ""], .userInfo "third" "", ?_, ?_⟩ <;> decide +kernel

example : ∃ h : List Call, ∃ s : State, (s.file .warning).isOpen = true ∧ raisedWhileEnabled .warning s.outputlevel h = false ∧
    fileTexts true .warning s.outputlevel h = ["a", "b"] :=
  ⟨[.warning "a" "", .userInfo "x" "", .warning "b" "", .setLevel 0, .warning "c" "", .terminating "d" ""],
    (call true (.setLevel 64) (initial fun _ => [])).1, by decide, by decide, by decide⟩

end Bezman.Props
