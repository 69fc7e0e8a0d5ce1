import Verif.Model.Logger

/-! # Specification: which messages are to appear where

Levels are sets of bits: bit 0 user information, 1 errors, 2 warnings, 3 logging, 4 verbose
logging, 5 time stamps, 6 warning file, 7 error file, 8 log file. -/

namespace Bezman.Spec
open Logger

/-- the message of a call -/
def text : Call → Option String
  | .setLevel _ => none
  | .setOptions _ => none
  | .warning t _ => some t
  | .userInfo t _ => some t
  | .logging t _ => some t
  | .extended t _ => some t
  | .error t _ => some t
  | .terminating t _ => some t

/-- the bit of the level that makes a call write to the console -/
def consoleBit : Call → Option Nat
  | .setLevel _ => none
  | .setOptions _ => none
  | .warning .. => some 2
  | .userInfo .. => some 0
  | .logging .. => some 3
  | .extended .. => some 4
  | .error .. => some 1
  | .terminating .. => some 1

/-- the file a call may write to -/
def fileOf : Call → Option FileId
  | .setLevel _ => none
  | .setOptions _ => none
  | .warning .. => some .warning
  | .userInfo .. => some .log
  | .logging .. => some .log
  | .extended .. => some .log
  | .error .. => some .error
  | .terminating .. => some .error

/-- the bit of the level that enables a file -/
def fileBit : FileId → Nat
  | .log => 8
  | .warning => 6
  | .error => 7

/-- the bits an option stands for -/
def optionBit (b : Nat) : OutputLevel → Bool
  | .nothing => false
  | .userinfo => b == 0
  | .errors => b == 1
  | .warnings => b == 2
  | .logging => b == 3
  | .logging_verbose => b == 4
  | .time_stamp => b == 5
  | .warning_file => b == 6
  | .error_file => b == 7
  | .log_file => b == 8
  | .all => b < 9

def isTerminating : Call → Bool
  | .terminating .. => true
  | _ => false

/-- the call writes to the console when the level is `l` -/
def writesConsole (enabled : Bool) (l : Nat) (c : Call) : Bool :=
  (enabled || isTerminating c) && (consoleBit c).any (fun b => l.testBit b)

/-- the call writes to the file `f` when the level is `l` -/
def writesFile (enabled : Bool) (l : Nat) (f : FileId) (c : Call) : Bool :=
  enabled && fileOf c == some f && l.testBit (fileBit f)

/-- a line of output shows a text -/
def Shows (line text : String) : Prop := ∃ a b, line = a ++ text ++ b

/-- the new level a call asks for -/
def newLevel : Call → Option Nat
  | .setLevel n => some n
  | .setOptions o => some (o.foldl (fun l o => l ||| o.toNat) 0)
  | _ => none

/-- the texts that a history of calls is to write to the console -/
def consoleTexts (enabled : Bool) : Nat → List Call → List String
  | _, [] => []
  | l, c :: cs =>
    (if writesConsole enabled l c then (text c).toList else []) ++ consoleTexts enabled ((newLevel c).getD l) cs

/-- the texts that a history of calls is to write to a file -/
def fileTexts (enabled : Bool) (f : FileId) : Nat → List Call → List String
  | _, [] => []
  | l, c :: cs =>
    (if writesFile enabled l f c then (text c).toList else []) ++ fileTexts enabled f ((newLevel c).getD l) cs

/-- some call of the history asks for a level that enables the file -/
def enables (f : FileId) (h : List Call) : Bool := h.any (fun c => (newLevel c).any (fun l => l.testBit (fileBit f)))

/-- some `TerminatingError` of the history is raised while the level enables the file; `l` is the level before the history -/
def raisedWhileEnabled (f : FileId) : Nat → List Call → Bool
  | _, [] => false
  | l, c :: cs => (isTerminating c && l.testBit (fileBit f)) || raisedWhileEnabled f ((newLevel c).getD l) cs

/-- the level after a history -/
def levelAfter (l : Nat) (h : List Call) : Nat := h.foldl (fun l c => (newLevel c).getD l) l

/-- the label of a message on the console -/
def consoleLabel : Call → String
  | .setLevel _ => ""
  | .setOptions _ => ""
  | .warning .. => "warning"
  | .userInfo .. => "user info"
  | .logging .. => "log"
  | .extended .. => "log"
  | .error .. => "error"
  | .terminating .. => "crit. error"

/-- the number of the terminal colour of a message: yellow for warnings, blue for user information, green for extended information,
red for errors, and the shell's own colour for logging -/
def colour : Call → String
  | .setLevel _ => ""
  | .setOptions _ => ""
  | .warning .. => "33"
  | .userInfo .. => "34"
  | .logging .. => ";0"
  | .extended .. => "32"
  | .error .. => "31"
  | .terminating .. => "31"

/-- the terminal shows `text` in the colour `code` and goes back to its own colour -/
def inColour (code text : String) : String := "\x1b[" ++ code ++ "m" ++ text ++ "\x1b[0m"

/-- the label of a message in a file -/
def fileLabel : FileId → String
  | .log => "user info"
  | .warning => "warning"
  | .error => "error"

/-- the time a call is made -/
def timeOf : Call → String
  | .setLevel _ => ""
  | .setOptions _ => ""
  | .warning _ now => now
  | .userInfo _ now => now
  | .logging _ now => now
  | .extended _ now => now
  | .error _ now => now
  | .terminating _ now => now

/-- the time stamp in brackets if bit 5 of the level is set -/
def stamp (l : Nat) (c : Call) : String := if l.testBit 5 then "[" ++ timeOf c ++ "]" else ""

/-- A line made of a first column of `width` characters that shows `label` at its right end (up to an escape sequence `post`), the
time stamp, and `body`. -/
def Layout (line : String) (width : Nat) (label stamp body : String) : Prop :=
  ∃ (k : Nat) (pre post : String), line = "[" ++ (String.ofList (List.replicate k ' ') ++ pre ++ label ++ post) ++ "]" ++ stamp ++ " : " ++ body ++ "\n" ∧
    k + pre.length + label.length + post.length = width

end Bezman.Spec
