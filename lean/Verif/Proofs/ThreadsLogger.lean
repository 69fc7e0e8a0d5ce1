import Verif.Proofs.Threads

/-! # The logger of the threads is the logger -/

namespace Bezman.Threads
open Spec
open Logger (OutputLevel FileId File fileLevel)
variable {α ρ : Type}

/-- the thread, alone, does what the logger does -/
def Does (m : Mem α) (s : Logger.State) (f : Act α ρ → Act α ρ) (g : Logger.State → Logger.State) : Prop :=
  ∃ m' l, m'.vars = m.vars ∧ SameLog m' (g s) ∧ String.join (g s).console = String.join s.console ++ String.join l ∧
    ∀ k, (f k).finish m = pre l (k.finish m')

theorem Does.comp {m : Mem α} {s : Logger.State} {f f' : Act α ρ → Act α ρ} {g g' : Logger.State → Logger.State}
    (h : Does m s f g) (h' : ∀ m', SameLog m' (g s) → Does m' (g s) f' g') : Does m s (fun k => f (f' k)) (fun s => g' (g s)) := by
  obtain ⟨m1, l1, a1, a2, a3, a4⟩ := h
  obtain ⟨m2, l2, b1, b2, b3, b4⟩ := h' m1 a2
  refine ⟨m2, l1 ++ l2, b1.trans a1, b2, ?_, fun k => ?_⟩
  · rw [b3, a3, String.join_append, String.append_assoc]
  · rw [a4, b4, pre_pre]

theorem Does.id {m : Mem α} {s : Logger.State} (h : SameLog m s) : Does m s (fun k : Act α ρ => k) (fun s => s) :=
  ⟨m, [], rfl, h, by simp, fun _ => rfl⟩

theorem has_eq {o : OutputLevel} {m : Mem α} {s : Logger.State} (h : SameLog m s) : has o m.level = Logger.test o s := by
  simp [has, Logger.test, h.1]

theorem sameLog_setFile {m : Mem α} {s : Logger.State} (h : SameLog m s) (f : FileId) {x y : File} (h1 : x.isOpen = y.isOpen)
    (h2 : String.join x.lines = String.join y.lines) :
    SameLog (m.setFile f x) { s with file := fun g => if g = f then y else s.file g } := by
  refine ⟨h.1, fun g => ?_⟩
  simp only [Mem.setFile]
  split
  · exact ⟨h1, h2⟩
  · exact h.2 g

theorem initFile_does (f : FileId) {m : Mem α} {s : Logger.State} (h : SameLog m s) :
    Does m s (initFile f : Act α ρ → Act α ρ) (Logger.openFile f) := by
  unfold Does Logger.openFile
  rw [← has_eq h, ← (h.2 f).1]
  by_cases h1 : has (fileLevel f) m.level = true
  · cases h2 : (m.file f).isOpen
    · refine ⟨m.setFile f ⟨true, []⟩, [], rfl, ?_, ?_, fun k => ?_⟩
      · simp only [h1, if_true, Bool.not_false]
        exact sameLog_setFile h f rfl rfl
      · simp [h1]
      · simp [initFile, Act.finish, h1, h2]
    · refine ⟨m, [], rfl, ?_, ?_, fun k => ?_⟩
      · simpa [h1] using h
      · simp [h1]
      · simp [initFile, Act.finish, h1, h2]
  · refine ⟨m, [], rfl, ?_, ?_, fun k => ?_⟩
    · simpa [h1] using h
    · simp [h1]
    · simp [initFile, Act.finish, h1]

theorem closeOne_does (f : FileId) {m : Mem α} {s : Logger.State} (h : SameLog m s) :
    Does m s (closeOne f : Act α ρ → Act α ρ) (Logger.closeFile f) := by
  unfold Does Logger.closeFile
  rw [← has_eq h, ← (h.2 f).1]
  by_cases h1 : has (fileLevel f) m.level = true
  · cases h2 : (m.file f).isOpen
    · refine ⟨m, [], rfl, ?_, ?_, fun k => ?_⟩
      · simpa [h1] using h
      · simp [h1]
      · simp [closeOne, Act.finish, h1, h2]
    · refine ⟨m.setFile f ⟨false, (m.file f).lines⟩, [], rfl, ?_, ?_, fun k => ?_⟩
      · simp only [h1, if_true]
        have := sameLog_setFile h f (x := ⟨false, (m.file f).lines⟩) (y := ⟨false, (s.file f).lines⟩) rfl (h.2 f).2
        convert this using 3
        split
        · next e => subst e; rfl
        · rfl
      · simp [h1]
      · simp [closeOne, Act.finish, h1, h2]
  · refine ⟨m, [], rfl, ?_, ?_, fun k => ?_⟩
    · simpa [h1] using h
    · simp [h1]
    · simp [closeOne, Act.finish, h1]

theorem init_does (enabled : Bool) {m : Mem α} {s : Logger.State} (h : SameLog m s) :
    Does m s (init enabled : Act α ρ → Act α ρ) (Logger.init enabled) := by
  cases enabled
  · exact Does.id h
  · exact (initFile_does .log h).comp fun m' h' => (initFile_does .warning h').comp fun m'' h'' => initFile_does .error h''

theorem close_does (enabled : Bool) {m : Mem α} {s : Logger.State} (h : SameLog m s) :
    Does m s (close enabled : Act α ρ → Act α ρ) (Logger.close enabled) := by
  cases enabled
  · exact Does.id h
  · exact (closeOne_does .log h).comp fun m' h' => (closeOne_does .warning h').comp fun m'' h'' => closeOne_does .error h''

theorem stampText_eq {m : Mem α} {s : Logger.State} (h : SameLog m s) :
    stampText (has .time_stamp m.level) = Logger.getTimeStamp "<time>" s := by
  unfold stampText Logger.getTimeStamp
  rw [has_eq h]
  rfl

theorem toConsole_does (c : LogKind) (text : String) {m : Mem α} {s : Logger.State} (h : SameLog m s) :
    Does m s (toConsole c text : Act α ρ → Act α ρ)
      (fun s => if Logger.test c.level s then Logger.print (Logger.consoleLine s "<time>" c.head c.code text) s else s) := by
  unfold Does
  beta_reduce
  rw [← has_eq h]
  by_cases h1 : has c.level m.level = true
  · refine ⟨m, ["[", Logger.setw 20 (Logger.colorText c.head c.code), "]", stampText (has .time_stamp m.level), " : ",
      Logger.colorText text c.code, "\n"], rfl, ?_, ?_, fun k => ?_⟩
    · simp only [h1, if_true]
      exact h
    · rw [if_pos h1, stampText_eq h]
      unfold Logger.print Logger.consoleLine
      generalize Logger.setw 20 (Logger.colorText c.head c.code) = u
      generalize Logger.colorText text c.code = v
      generalize Logger.getTimeStamp "<time>" s = w
      simp only [String.join_append, String.join_cons, String.join_nil, String.append_assoc, String.append_empty]
    · unfold toConsole consoleLine getTimeStamp
      cases h2 : has .time_stamp m.level <;> simp [Act.finish, h1, h2, pre]
  · refine ⟨m, [], rfl, ?_, ?_, fun k => ?_⟩
    · simpa [h1] using h
    · simp [h1]
    · simp [toConsole, Act.finish, h1]

@[simp] theorem setFile_setFile (m : Mem α) (f : FileId) (x y : File) : (m.setFile f x).setFile f y = m.setFile f y := by
  unfold Mem.setFile
  congr 1
  funext g
  by_cases h : g = f <;> simp [h]

@[simp] theorem setFile_file (m : Mem α) (f : FileId) (x : File) : (m.setFile f x).file f = x := by simp [Mem.setFile]

@[simp] theorem setFile_level (m : Mem α) (f : FileId) (x : File) : (m.setFile f x).level = m.level := rfl

theorem toFile_does (c : LogKind) (text : String) {m : Mem α} {s : Logger.State} (h : SameLog m s) :
    Does m s (toFile c text : Act α ρ → Act α ρ)
      (fun s => if Logger.test (fileLevel c.file) s then Logger.write c.file (Logger.fileLine s "<time>" c.fileHead text) s else s) := by
  unfold Does
  beta_reduce
  rw [← has_eq h]
  by_cases h1 : has (fileLevel c.file) m.level = true
  · rw [if_pos h1]
    unfold Logger.write
    rw [← (h.2 c.file).1]
    by_cases h2 : (m.file c.file).isOpen = true
    · refine ⟨m.setFile c.file ⟨true, (m.file c.file).lines ++ ["[", Logger.setw 10 c.fileHead, "]", stampText (has .time_stamp m.level),
        " : ", text, "\n"]⟩, [], rfl, ?_, ?_, fun k => ?_⟩
      · rw [if_pos h2]
        have := sameLog_setFile h c.file (x := ⟨true, (m.file c.file).lines ++ ["[", Logger.setw 10 c.fileHead, "]",
          stampText (has .time_stamp m.level), " : ", text, "\n"]⟩)
          (y := ⟨true, (s.file c.file).lines ++ [Logger.fileLine s "<time>" c.fileHead text]⟩) rfl (by
            rw [stampText_eq h]
            unfold Logger.fileLine
            generalize Logger.setw 10 c.fileHead = u
            generalize Logger.getTimeStamp "<time>" s = w
            simp only [String.join_append, String.join_cons, String.join_nil, String.append_assoc, String.append_empty, (h.2 c.file).2])
        convert this using 3
        split
        · next e => subst e; rfl
        · rfl
      · rw [if_pos h2]
        simp
      · unfold toFile fileLine getTimeStamp
        cases h3 : has .time_stamp m.level <;> simp [Act.finish, h1, h2, h3]
    · refine ⟨m, [], rfl, ?_, ?_, fun k => ?_⟩
      · rw [if_neg h2]
        exact h
      · rw [if_neg h2]
        simp
      · unfold toFile fileLine getTimeStamp
        cases h3 : has .time_stamp m.level <;> simp [Act.finish, h1, h2, h3]
  · refine ⟨m, [], rfl, ?_, ?_, fun k => ?_⟩
    · simpa [h1] using h
    · simp [h1]
    · simp [toFile, Act.finish, h1]

theorem message_does (enabled : Bool) (c : LogKind) (text : String) {m : Mem α} {s : Logger.State} (h : SameLog m s) :
    Does m s (message enabled c text : Act α ρ → Act α ρ) (fun s => (Logger.call enabled (LogCall.message c text).call s).1) := by
  have key : ∀ m', SameLog m' (Logger.init enabled s) → ∀ c : LogKind, c ≠ .terminating → Does m' (Logger.init enabled s)
      (fun k : Act α ρ => if enabled then toConsole c text (toFile c text k) else k)
      (Logger.message enabled c.level c.file c.head c.code c.fileHead text "<time>") := by
    intro m' h' c _
    cases enabled
    · exact Does.id h'
    · exact (toConsole_does c text h').comp fun m'' h'' => toFile_does c text h''
  cases c
  case terminating =>
    refine (init_does enabled h).comp (g' := Logger.terminatingError enabled text "<time>") fun m' h' => ?_
    cases enabled
    · exact (toConsole_does .terminating text h').comp fun m'' h'' => close_does false h''
    · exact (toConsole_does .terminating text h').comp fun m'' h'' => (toFile_does .terminating text h'').comp fun m3 h3 => close_does true h3
  all_goals exact (init_does enabled h).comp fun m' h' => key m' h' _ (by decide)

theorem setLevel_does (enabled : Bool) (n : ℕ) {m : Mem α} {s : Logger.State} (h : SameLog m s) :
    Does m s (fun k : Act α ρ => init enabled (.writeLevel n (init enabled k))) (fun s => (Logger.call enabled (.setLevel n) s).1) :=
  (init_does enabled h).comp (f' := fun k : Act α ρ => .writeLevel n (init enabled k))
    (g' := fun s => Logger.init enabled { s with outputlevel := n }) fun m' h' => by
    have h1 : Does m' (Logger.init enabled s) (fun k : Act α ρ => .writeLevel n k) (fun s => { s with outputlevel := n }) :=
      ⟨{ m' with level := n }, [], rfl, ⟨rfl, h'.2⟩, by simp, fun k => by simp [Act.finish]⟩
    exact h1.comp fun m'' h'' => init_does enabled h''

theorem code_does (enabled : Bool) (outs : List ρ) : ∀ (p : List LogCall) {m : Mem α} {s : Logger.State}, SameLog m s →
    ∃ m' l, m'.vars = m.vars ∧ SameLog m' (Logger.run enabled (p.map LogCall.call) s) ∧
      String.join (Logger.run enabled (p.map LogCall.call) s).console = String.join s.console ++ String.join l ∧
      (code enabled outs (p.map LogCall.stmt)).finish m = (m', outs, none, l)
  | [], m, s, h => ⟨m, [], rfl, h, by simp [Logger.run], rfl⟩
  | c :: p, m, s, h => by
    have key : ∀ c : LogCall, ∃ f : Act α ρ → Act α ρ, Does m s f (fun s => (Logger.call enabled c.call s).1) ∧
        (code enabled outs ((c :: p).map LogCall.stmt)).finish m = (f (code enabled outs (p.map LogCall.stmt))).finish m := by
      rintro (⟨k, text⟩ | n)
      · refine ⟨_, message_does enabled k text h, ?_⟩
        cases k <;> simp [LogCall.stmt, code, readVars, messages, ending, writeVars]
      · exact ⟨_, setLevel_does enabled n h, rfl⟩
    obtain ⟨f, ⟨m1, l1, a1, a2, a3, a4⟩, e⟩ := key c
    obtain ⟨m2, l2, b1, b2, b3, b4⟩ := code_does enabled outs p a2
    refine ⟨m2, l1 ++ l2, b1.trans a1, b2, ?_, ?_⟩
    · show String.join (Logger.run enabled (p.map LogCall.call) (Logger.call enabled c.call s).1).console = _
      rw [b3, a3, String.join_append, String.append_assoc]
    · rw [e, a4, b4]
      rfl

theorem within_univ : ∀ (a : Act α ρ) (m : Mem α), a.Within Set.univ Set.univ m
  | .stop _ _, _ => trivial
  | .readVar _ k, _ => ⟨trivial, within_univ (k _) _⟩
  | .writeVar _ _ k, _ => ⟨trivial, within_univ k _⟩
  | .readLevel k, _ => ⟨trivial, within_univ (k _) _⟩
  | .writeLevel _ k, _ => ⟨trivial, within_univ k _⟩
  | .isOpen _ k, _ => ⟨trivial, within_univ (k _) _⟩
  | .openFile _ k, _ => ⟨trivial, within_univ k _⟩
  | .closeFile _ k, _ => ⟨trivial, within_univ k _⟩
  | .writeFile _ _ k, _ => ⟨trivial, within_univ k _⟩
  | .stamp k, _ => ⟨trivial, within_univ k _⟩
  | .print _ k, m => within_univ k m

end Bezman.Threads
