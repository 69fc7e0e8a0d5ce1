import Verif.Spec.Logger
import Mathlib.Data.Nat.Bitwise
import Mathlib.Data.List.Forall2
import Mathlib.Tactic.Common

namespace Bezman.Logger
open Spec

theorem test_bit (i : ℕ) (o : OutputLevel) (ho : o.toNat = 2 ^ i) (s : State) : test o s = s.outputlevel.testBit i := by
  unfold test
  rw [ho, Nat.two_pow_and]
  cases s.outputlevel.testBit i <;> simp

theorem test_file (f : FileId) (s : State) : test (fileLevel f) s = s.outputlevel.testBit (fileBit f) := by
  cases f
  · exact test_bit 8 _ rfl s
  · exact test_bit 6 _ rfl s
  · exact test_bit 7 _ rfl s

@[simp] theorem openFile_level (f : FileId) (s : State) : (openFile f s).outputlevel = s.outputlevel := by
  unfold openFile; split
  · split <;> rfl
  · rfl
@[simp] theorem openFile_console (f : FileId) (s : State) : (openFile f s).console = s.console := by
  unfold openFile; split
  · split <;> rfl
  · rfl
@[simp] theorem closeFile_level (f : FileId) (s : State) : (closeFile f s).outputlevel = s.outputlevel := by
  unfold closeFile; split
  · split <;> rfl
  · rfl
@[simp] theorem closeFile_console (f : FileId) (s : State) : (closeFile f s).console = s.console := by
  unfold closeFile; split
  · split <;> rfl
  · rfl

theorem openFile_file (f g : FileId) (s : State) : (openFile f s).file g =
    if g = f ∧ s.outputlevel.testBit (fileBit f) = true ∧ (s.file f).isOpen = false then ⟨true, []⟩ else s.file g := by
  unfold openFile
  rw [test_file]
  by_cases h1 : s.outputlevel.testBit (fileBit f) = true
  · rw [if_pos h1]
    by_cases h2 : (s.file f).isOpen = false
    · rw [if_pos (by simp [h2])]
      by_cases h3 : g = f <;> simp [h1, h2, h3]
    · rw [if_neg (by simpa using h2)]
      simp [h2]
  · rw [if_neg h1]
    simp [h1]

theorem closeFile_file (f g : FileId) (s : State) : (closeFile f s).file g =
    if g = f ∧ s.outputlevel.testBit (fileBit f) = true then ⟨false, (s.file g).lines⟩ else s.file g := by
  unfold closeFile
  rw [test_file]
  by_cases h1 : s.outputlevel.testBit (fileBit f) = true
  · rw [if_pos h1]
    by_cases h2 : (s.file f).isOpen = true
    · rw [if_pos h2]
      by_cases h3 : g = f <;> simp [h1, h3]
    · rw [if_neg h2]
      by_cases h3 : g = f
      · subst h3
        rw [if_pos ⟨rfl, h1⟩]
        have h4 : (s.file g).isOpen = false := by simpa using h2
        rw [← h4]
      · simp [h3]
  · rw [if_neg h1]
    simp [h1]

@[simp] theorem init_level (e : Bool) (s : State) : (init e s).outputlevel = s.outputlevel := by
  unfold init; split <;> simp
@[simp] theorem init_console (e : Bool) (s : State) : (init e s).console = s.console := by
  unfold init; split <;> simp
@[simp] theorem close_level (e : Bool) (s : State) : (close e s).outputlevel = s.outputlevel := by
  unfold close; split <;> simp
@[simp] theorem close_console (e : Bool) (s : State) : (close e s).console = s.console := by
  unfold close; split <;> simp

theorem init_file (e : Bool) (f : FileId) (s : State) : (init e s).file f =
    if e = true ∧ s.outputlevel.testBit (fileBit f) = true ∧ (s.file f).isOpen = false then ⟨true, []⟩ else s.file f := by
  unfold init
  cases e
  · simp
  · simp only [if_true, openFile_file, openFile_level, true_and]
    cases f <;> simp

theorem close_file (e : Bool) (f : FileId) (s : State) : (close e s).file f =
    if e = true ∧ s.outputlevel.testBit (fileBit f) = true then ⟨false, (s.file f).lines⟩ else s.file f := by
  unfold close
  cases e
  · simp
  · simp only [if_true, closeFile_file, closeFile_level, true_and]
    cases f <;> simp

/-- what a call finds in a file when it starts writing -/
def opened (e : Bool) (s : State) (f : FileId) : List String := ((init e s).file f).lines

theorem init_open {e : Bool} {f : FileId} {s : State} (he : e = true) (h : s.outputlevel.testBit (fileBit f) = true) :
    ((init e s).file f).isOpen = true := by
  rw [init_file]
  by_cases h2 : (s.file f).isOpen = false
  · rw [if_pos ⟨he, h, h2⟩]
  · rw [if_neg (fun h => h2 h.2.2)]
    simpa using h2

theorem init_init (e : Bool) (s1 : State) : init e (init e s1) = init e s1 := by
  have hf : (init e (init e s1)).file = (init e s1).file := by
    funext g
    rw [init_file]
    split
    · rename_i h
      have := init_open (f := g) (s := s1) h.1 (by simpa using h.2.1)
      rw [this] at h
      cases h.2.2
    · rfl
  have h1 := init_level e (init e s1)
  have h2 := init_console e (init e s1)
  cases h3 : init e (init e s1)
  cases h4 : init e s1
  rw [h3, h4] at hf h1 h2
  simp only at hf h1 h2
  subst hf h1 h2
  rfl

theorem consoleLine_shows (s : State) (now head code t : String) : Shows (consoleLine s now head code t) t :=
  ⟨"[" ++ setw 20 (colorText head code) ++ "]" ++ getTimeStamp now s ++ " : " ++ ("\x1b[" ++ code ++ "m"), "\x1b[0m" ++ "\n", by
    unfold consoleLine colorText; simp only [String.append_assoc]⟩

theorem fileLine_shows (s : State) (now head t : String) : Shows (fileLine s now head t) t :=
  ⟨"[" ++ setw 10 head ++ "]" ++ getTimeStamp now s ++ " : ", "\n", rfl⟩

theorem write_file (f g : FileId) (line : String) (s : State) : (write f line s).file g =
    if g = f ∧ (s.file f).isOpen = true then ⟨true, (s.file g).lines ++ [line]⟩ else s.file g := by
  unfold write
  by_cases h : (s.file f).isOpen = true
  · rw [if_pos h]
    by_cases h2 : g = f <;> simp [h, h2]
  · rw [if_neg h]
    simp [h]
@[simp] theorem write_level (f : FileId) (line : String) (s : State) : (write f line s).outputlevel = s.outputlevel := by
  unfold write; split <;> rfl
@[simp] theorem write_console (f : FileId) (line : String) (s : State) : (write f line s).console = s.console := by
  unfold write; split <;> rfl

theorem message_spec (e : Bool) (i : ℕ) (level : OutputLevel) (hl : level.toNat = 2 ^ i) (f : FileId) (head code fh t now : String) (s : State)
    (hopen : s.outputlevel.testBit (fileBit f) = true → e = true → (s.file f).isOpen = true) :
    let r := message e level f head code fh t now s
    r.outputlevel = s.outputlevel ∧
    (r.console = s.console ++ if e && s.outputlevel.testBit i then [consoleLine s now head code t] else []) ∧
    ∀ g, r.file g = if e = true ∧ g = f ∧ s.outputlevel.testBit (fileBit f) = true then
      ⟨true, (s.file g).lines ++ [fileLine s now fh t]⟩ else s.file g := by
  intro r
  have hr : r = message e level f head code fh t now s := rfl
  clear_value r
  subst hr
  unfold message
  cases e
  · simp
  · simp only [if_true, test_bit i level hl, test_file]
    have hts : ∀ (line : String), fileLine (print line s) now fh t = fileLine s now fh t := fun line => rfl
    by_cases h1 : s.outputlevel.testBit i = true <;> by_cases h2 : s.outputlevel.testBit (fileBit f) = true
    · have hp : (print (consoleLine s now head code t) s).outputlevel = s.outputlevel := rfl
      simp only [h1, if_true, hp, h2, write_level, write_console, write_file, hts]
      refine ⟨trivial, by simp [print], fun g => ?_⟩
      have := hopen h2 rfl
      by_cases h3 : g = f <;> simp [print, this, h3]
    · have hp : (print (consoleLine s now head code t) s).outputlevel = s.outputlevel := rfl
      simp [h1, hp, h2]
      simp [print]
    · have h1' : s.outputlevel.testBit i = false := by simpa using h1
      simp only [h1', h2, Bool.false_eq_true, if_false, if_true, write_level, write_console, write_file]
      refine ⟨trivial, by simp, fun g => ?_⟩
      have := hopen h2 rfl
      by_cases h3 : g = f <;> simp [this, h3]
    · simp [h1, h2]

theorem terminatingError_spec (e : Bool) (t now : String) (s : State)
    (hopen : s.outputlevel.testBit (fileBit .error) = true → e = true → (s.file .error).isOpen = true) :
    let r := terminatingError e t now s
    r.outputlevel = s.outputlevel ∧
    (r.console = s.console ++ if s.outputlevel.testBit 1 then [consoleLine s now "crit. error" "31" t] else []) ∧
    ∀ g, r.file g = ⟨if e = true ∧ s.outputlevel.testBit (fileBit g) = true then false else (s.file g).isOpen,
      (s.file g).lines ++ if e = true ∧ g = .error ∧ s.outputlevel.testBit (fileBit g) = true then [fileLine s now "error" t] else []⟩ := by
  intro r
  have hr : r = terminatingError e t now s := rfl
  clear_value r
  subst hr
  unfold terminatingError
  have hf : ∀ s, test .error_file s = s.outputlevel.testBit (fileBit .error) := fun s => test_file .error s
  simp only [test_bit 1 .errors rfl, hf]
  have hts : ∀ (line : String), fileLine (print line s) now "error" t = fileLine s now "error" t := fun line => rfl
  by_cases h1 : s.outputlevel.testBit 1 = true
  · have hp : (print (consoleLine s now "crit. error" "31" t) s).outputlevel = s.outputlevel := rfl
    cases e
    · simp [h1, close, print]
    · by_cases h2 : s.outputlevel.testBit (fileBit .error) = true
      · simp only [h1, if_true, hp, h2, close_level, write_level, close_console, write_console, close_file, write_file, hts]
        refine ⟨trivial, by simp [print], fun g => ?_⟩
        have := hopen h2 rfl
        cases g <;> simp [print, this, h2] <;> split <;> simp_all
      · simp only [h1, if_true, hp, h2, close_level, close_console, close_file]
        refine ⟨by simp [hp], by simp [print], fun g => ?_⟩
        cases g <;> simp [print, h2] <;> split <;> simp_all
  · have h1' : s.outputlevel.testBit 1 = false := by simpa using h1
    cases e
    · simp [h1', close]
    · by_cases h2 : s.outputlevel.testBit (fileBit .error) = true
      · simp only [h1', Bool.false_eq_true, if_false, if_true, h2, close_level, write_level, close_console, write_console,
          close_file, write_file]
        refine ⟨trivial, by simp, fun g => ?_⟩
        have := hopen h2 rfl
        cases g <;> simp [this, h2] <;> split <;> simp_all
      · have h2' : s.outputlevel.testBit (fileBit .error) = false := by simpa using h2
        simp only [h1', Bool.false_eq_true, if_false, if_true, h2', close_level, close_console, close_file]
        refine ⟨trivial, by simp, fun g => ?_⟩
        cases g <;> simp [h2'] <;> split <;> simp_all

end Bezman.Logger
