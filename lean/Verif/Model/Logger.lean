import Verif.Model.Basic

/-! # Model of src/utils/logger.hpp

The state of the program as far as the logger is concerned: the output level, the three
file streams, the contents of the three files and what has been written to the console.
`enabled` tells whether the program is compiled with `ENABLE_LOGGING`. Simplifications:
files can always be opened and written, buffers count as written, and the time stamps that
one call writes to console and file are the same. -/

namespace Bezman.Logger

/-- `Logger::OutputLevel`, src/utils/logger.hpp:54-66 -/
inductive OutputLevel
  | nothing | userinfo | errors | warnings | logging | logging_verbose | time_stamp | warning_file | error_file | log_file | all

/-- values of the enumerators, src/utils/logger.hpp:54-66 -/
def OutputLevel.toNat : OutputLevel → Nat
  | nothing => 0
  | userinfo => 1
  | errors => 2
  | warnings => 4
  | logging => 8
  | logging_verbose => 16
  | time_stamp => 32
  | warning_file => 64
  | error_file => 128
  | log_file => 256
  | all => 511

/-- the file streams, src/utils/logger.hpp:332-334 -/
inductive FileId
  | log | warning | error
deriving DecidableEq

/-- a stream and the lines of the file it belongs to -/
structure File where
  isOpen : Bool
  lines : List String

/-- the singleton `Logger` with its surroundings, src/utils/logger.hpp:324-379 -/
structure State where
  outputlevel : Nat
  file : FileId → File
  console : List String

/-- a program that has not called the logger yet; the level is 39, src/utils/logger.hpp:379.
Files may exist from earlier runs. -/
def initial (disk : FileId → List String) : State where
  outputlevel := 39
  file f := ⟨false, disk f⟩
  console := []

/-- `static_cast<unsigned>(option) & outputlevel_` as a condition -/
def test (o : OutputLevel) (s : State) : Bool := o.toNat &&& s.outputlevel != 0

/-- the level that enables a file, src/utils/logger.hpp:337-376 -/
def fileLevel : FileId → OutputLevel
  | .log => .log_file
  | .warning => .warning_file
  | .error => .error_file

/-- one block of `init`, src/utils/logger.hpp:339-343 (and 344-353): a stream that is not
open is opened for writing, which empties the file -/
def openFile (f : FileId) (s : State) : State :=
  if test (fileLevel f) s then
    if !(s.file f).isOpen then { s with file := fun g => if g = f then ⟨true, []⟩ else s.file g } else s
  else s

/-- `init`, src/utils/logger.hpp:337-355 -/
def init (enabled : Bool) (s : State) : State :=
  if enabled then openFile .error (openFile .warning (openFile .log s)) else s

/-- one block of `close`, src/utils/logger.hpp:360-364 (and 365-374) -/
def closeFile (f : FileId) (s : State) : State :=
  if test (fileLevel f) s then
    if (s.file f).isOpen then { s with file := fun g => if g = f then ⟨false, (s.file g).lines⟩ else s.file g } else s
  else s

/-- `close`, src/utils/logger.hpp:358-376 -/
def close (enabled : Bool) (s : State) : State :=
  if enabled then closeFile .error (closeFile .warning (closeFile .log s)) else s

/-- `std::setw(w)` and the text -/
def setw (w : Nat) (text : String) : String := String.ofList (List.replicate (w - text.length) ' ') ++ text

/-- `ColorText`, src/utils/logger.hpp:399-420; `code` is the number in the escape sequence -/
def colorText (text code : String) : String := "\x1b[" ++ code ++ "m" ++ text ++ "\x1b[0m"

/-- `GetTimeStamp_`, src/utils/logger.hpp:384-393; `now` is the result of
`std::asctime` -/
def getTimeStamp (now : String) (s : State) : String :=
  if test .time_stamp s then "[" ++ now ++ "]" else ""

/-- a line on the console, e.g. src/utils/logger.hpp:200-202 -/
def consoleLine (s : State) (now head code text : String) : String :=
  "[" ++ setw 20 (colorText head code) ++ "]" ++ getTimeStamp now s ++ " : " ++ colorText text code ++ "\n"

/-- a line in a file, e.g. src/utils/logger.hpp:205-206 -/
def fileLine (s : State) (now head text : String) : String :=
  "[" ++ setw 10 head ++ "]" ++ getTimeStamp now s ++ " : " ++ text ++ "\n"

/-- `std::cout << line` -/
def print (line : String) (s : State) : State := { s with console := s.console ++ [line] }

/-- `stream << line`; nothing happens if the stream is not open -/
def write (f : FileId) (line : String) (s : State) : State :=
  if (s.file f).isOpen then
    { s with file := fun g => if g = f then ⟨true, (s.file g).lines ++ [line]⟩ else s.file g }
  else s

/-- the body common to `Warning_` (src/utils/logger.hpp:197-209), `UserInfo_` (217-229),
`Logging_` (237-250), `ExtendedInformation_` (259-271) and `Error_` (279-291) -/
def message (enabled : Bool) (level : OutputLevel) (f : FileId) (head code fileHead text now : String) (s : State) : State :=
  if enabled then
    let s := if test level s then print (consoleLine s now head code text) s else s
    if test (fileLevel f) s then write f (fileLine s now fileHead text) s else s
  else s

/-- The public functions of the logger. -/
inductive Call
  /-- `SetOutputLevel(unsigned)` -/
  | setLevel (n : Nat)
  /-- `SetOutputLevel({...})` -/
  | setOptions (options : List OutputLevel)
  | warning (text now : String)
  | userInfo (text now : String)
  | logging (text now : String)
  | extended (text now : String)
  | error (text now : String)
  | terminating (text now : String)

/-- `TerminatingError_`, src/utils/logger.hpp:300-317, without the `throw` -/
def terminatingError (enabled : Bool) (text now : String) (s : State) : State :=
  let s := if test .errors s then print (consoleLine s now "crit. error" "31" text) s else s
  let s := if enabled then
      if test .error_file s then write .error (fileLine s now "error" text) s else s
    else s
  close enabled s

/-- A call of a public function, src/utils/logger.hpp:75-147. `Get()`
(src/utils/logger.hpp:155-159) initialises the streams first. The second component is the
exception. -/
def call (enabled : Bool) (c : Call) (s : State) : State × Option Err :=
  let s := init enabled s
  match c with
  | .setLevel n => (init enabled { s with outputlevel := n }, none)
  | .setOptions options =>
    (init enabled { s with outputlevel := options.foldl (fun l o => l ||| o.toNat) 0 }, none)
  | .warning text now => (message enabled .warnings .warning "warning" "33" "warning" text now s, none)
  | .userInfo text now => (message enabled .userinfo .log "user info" "34" "user info" text now s, none)
  | .logging text now => (message enabled .logging .log "log" ";0" "user info" text now s, none)
  | .extended text now => (message enabled .logging_verbose .log "log" "32" "user info" text now s, none)
  | .error text now => (message enabled .errors .error "error" "31" "error" text now s, none)
  | .terminating text now => (terminatingError enabled text now s, some .throws)

/-- A program that makes these calls one after the other and catches every exception. -/
def run (enabled : Bool) : List Call → State → State
  | [], s => s
  | c :: cs, s => run enabled cs (call enabled c s).1

end Bezman.Logger
