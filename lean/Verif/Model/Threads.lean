import Verif.Model.Logger
import Verif.Model.Split
import Verif.Model.Messages
import Verif.Model.History

/-! # Threads that use the library at the same time

The library starts no threads and has no locks. Objects it shares between calls are the logger, a singleton that every call of a logging
function goes through (src/utils/logger.hpp:155-159), and what belongs to the C++ library: `std::cout` and the static buffers of
`std::localtime` and `std::asctime` (src/utils/logger.hpp:386-387). A thread is a tree of single accesses to shared memory; threads are
interleaved access by access. Simplifications: a spline object, with its vector, is one place of memory, a call reads the
splines it uses, sends its messages and then writes its results, and the texts of time stamps are left out. The initialisation of the singleton itself is
synchronised by the language. -/

namespace Bezman.Threads
open Logger (OutputLevel FileId File fileLevel)

/-- Places in shared memory. -/
inductive Loc
  /-- a spline object -/
  | var (i : Nat)
  /-- `outputlevel_`, src/utils/logger.hpp:379 -/
  | level
  /-- the file streams, src/utils/logger.hpp:332-334 -/
  | stream (f : FileId)
  /-- the static buffers of `std::localtime` and `std::asctime`, src/utils/logger.hpp:386-387 -/
  | clock
deriving DecidableEq

/-- The shared memory, apart from the contents of the buffers of `std::localtime`. -/
structure Mem (α : Type) where
  vars : Nat → α
  level : Nat
  file : FileId → File

/-- What a thread still has to do. `std::cout` is synchronised by the C++ library, writing to it is no access to memory. -/
inductive Act (α ρ : Type)
  /-- the end; what the thread has computed, and the error that ended it -/
  | stop (outs : List ρ) (e : Option Err)
  /-- read a spline -/
  | readVar (i : Nat) (k : α → Act α ρ)
  /-- write a spline -/
  | writeVar (i : Nat) (x : α) (k : Act α ρ)
  /-- read `outputlevel_` -/
  | readLevel (k : Nat → Act α ρ)
  /-- write `outputlevel_` -/
  | writeLevel (n : Nat) (k : Act α ρ)
  /-- `is_open()` -/
  | isOpen (f : FileId) (k : Bool → Act α ρ)
  /-- `open(...)`, which empties the file -/
  | openFile (f : FileId) (k : Act α ρ)
  /-- `close()` -/
  | closeFile (f : FileId) (k : Act α ρ)
  /-- `stream << text` -/
  | writeFile (f : FileId) (text : String) (k : Act α ρ)
  /-- `std::asctime(std::localtime(...))` -/
  | stamp (k : Act α ρ)
  /-- `std::cout << text` -/
  | print (text : String) (k : Act α ρ)

variable {α ρ : Type}

/-- The next access to memory of a thread, and whether it is a write. -/
def Act.access : Act α ρ → Option (Loc × Bool)
  | .stop .. => none
  | .readVar i _ => some (.var i, false)
  | .writeVar i _ _ => some (.var i, true)
  | .readLevel _ => some (.level, false)
  | .writeLevel .. => some (.level, true)
  | .isOpen f _ => some (.stream f, false)
  | .openFile f _ => some (.stream f, true)
  | .closeFile f _ => some (.stream f, true)
  | .writeFile f _ _ => some (.stream f, true)
  | .stamp _ => some (.clock, true)
  | .print .. => none

/-- write one of the file streams -/
def Mem.setFile (m : Mem α) (f : FileId) (x : File) : Mem α := { m with file := fun g => if g = f then x else m.file g }

/-- One step of a thread: the memory afterwards, the rest of the thread and what it has written to the console. -/
def Act.step (m : Mem α) : Act α ρ → Mem α × Act α ρ × List String
  | .stop outs e => (m, .stop outs e, [])
  | .readVar i k => (m, k (m.vars i), [])
  | .writeVar i x k => ({ m with vars := fun j => if j = i then x else m.vars j }, k, [])
  | .readLevel k => (m, k m.level, [])
  | .writeLevel n k => ({ m with level := n }, k, [])
  | .isOpen f k => (m, k (m.file f).isOpen, [])
  | .openFile f k => (m.setFile f ⟨true, []⟩, k, [])
  | .closeFile f k => (m.setFile f ⟨false, (m.file f).lines⟩, k, [])
  | .writeFile f text k => (if (m.file f).isOpen then m.setFile f ⟨true, (m.file f).lines ++ [text]⟩ else m, k, [])
  | .stamp k => (m, k, [])
  | .print text k => (m, k, [text])

/-! ## The logger -/

/-- `static_cast<unsigned>(option) & outputlevel_` as a condition -/
def has (o : OutputLevel) (n : Nat) : Bool := o.toNat &&& n != 0

/-- one block of `init`, src/utils/logger.hpp:339-343 -/
def initFile (f : FileId) (k : Act α ρ) : Act α ρ :=
  .readLevel fun n => if has (fileLevel f) n then .isOpen f fun b => if b then k else .openFile f k else k

/-- `init`, src/utils/logger.hpp:337-355 -/
def init (enabled : Bool) (k : Act α ρ) : Act α ρ :=
  if enabled then initFile .log (initFile .warning (initFile .error k)) else k

/-- one block of `close`, src/utils/logger.hpp:360-364 -/
def closeOne (f : FileId) (k : Act α ρ) : Act α ρ :=
  .readLevel fun n => if has (fileLevel f) n then .isOpen f fun b => if b then .closeFile f k else k else k

/-- `close`, src/utils/logger.hpp:358-376 -/
def close (enabled : Bool) (k : Act α ρ) : Act α ρ :=
  if enabled then closeOne .log (closeOne .warning (closeOne .error k)) else k

/-- `GetTimeStamp_`, src/utils/logger.hpp:384-393; `k` gets whether there is a stamp -/
def getTimeStamp (k : Bool → Act α ρ) : Act α ρ :=
  .readLevel fun n => if has .time_stamp n then .stamp (k true) else k false

/-- the text of a time stamp -/
def stampText (b : Bool) : String := if b then "[<time>]" else ""

/-- a line on the console, one `<<` after the other, e.g. src/utils/logger.hpp:200-202 -/
def consoleLine (head code text : String) (k : Act α ρ) : Act α ρ :=
  .print "[" (.print (Logger.setw 20 (Logger.colorText head code)) (.print "]" (getTimeStamp fun b => .print (stampText b)
    (.print " : " (.print (Logger.colorText text code) (.print "\n" k))))))

/-- a line in a file, one `<<` after the other, e.g. src/utils/logger.hpp:205-206 -/
def fileLine (f : FileId) (head text : String) (k : Act α ρ) : Act α ρ :=
  .writeFile f "[" (.writeFile f (Logger.setw 10 head) (.writeFile f "]" (getTimeStamp fun b => .writeFile f (stampText b)
    (.writeFile f " : " (.writeFile f text (.writeFile f "\n" k))))))

/-- The functions of the logger that write messages. -/
inductive LogKind
  | warning | userInfo | logging | extended | error | terminating
deriving DecidableEq

/-- the level that sends messages to the console, src/utils/logger.hpp:199, 219, 239, 261, 281, 302 -/
def LogKind.level : LogKind → OutputLevel
  | warning => .warnings
  | userInfo => .userinfo
  | logging => .logging
  | extended => .logging_verbose
  | error => .errors
  | terminating => .errors

/-- the file, src/utils/logger.hpp:204, 224, 245, 266, 286, 309 -/
def LogKind.file : LogKind → FileId
  | warning => .warning
  | userInfo | logging | extended => .log
  | error | terminating => .error

/-- the first column on the console, src/utils/logger.hpp:201, 221, 241, 263, 283, 304 -/
def LogKind.head : LogKind → String
  | warning => "warning"
  | userInfo => "user info"
  | logging | extended => "log"
  | error => "error"
  | terminating => "crit. error"

/-- the colour, src/utils/logger.hpp:201, 221, 241, 263, 283, 304 and 401-417 -/
def LogKind.code : LogKind → String
  | warning => "33"
  | userInfo => "34"
  | logging => ";0"
  | extended => "32"
  | error | terminating => "31"

/-- the first column in a file, src/utils/logger.hpp:205, 225, 246, 267, 287, 310 -/
def LogKind.fileHead : LogKind → String
  | warning => "warning"
  | userInfo | logging | extended => "user info"
  | error | terminating => "error"

/-- the console part of a message, e.g. src/utils/logger.hpp:199-203 -/
def toConsole (c : LogKind) (text : String) (k : Act α ρ) : Act α ρ :=
  .readLevel fun n => if has c.level n then consoleLine c.head c.code text k else k

/-- the file part of a message, e.g. src/utils/logger.hpp:204-207 -/
def toFile (c : LogKind) (text : String) (k : Act α ρ) : Act α ρ :=
  .readLevel fun n => if has (fileLevel c.file) n then fileLine c.file c.fileHead text k else k

/-- A message, src/utils/logger.hpp:97-147 and 155-317; `terminating` without the `throw`. -/
def message (enabled : Bool) (c : LogKind) (text : String) (k : Act α ρ) : Act α ρ :=
  init enabled <|
    match c with
    | .terminating => toConsole .terminating text (if enabled then toFile .terminating text (close enabled k) else close enabled k)
    | c => if enabled then toConsole c text (toFile c text k) else k

/-- several messages -/
def messages (enabled : Bool) : List (LogKind × String) → Act α ρ → Act α ρ
  | [], k => k
  | (c, text) :: l, k => message enabled c text (messages enabled l k)

/-! ## Calls -/

/-- A call of a member or operator of the library. -/
structure Call (α ρ : Type) where
  /-- the splines it reads, a mutated object included -/
  args : List Nat
  /-- the splines it writes -/
  targets : List Nat
  /-- the messages it sends, the one of `TerminatingError` included, and then what it writes to `targets` and what it returns to the
  thread -/
  run : List α → List (LogKind × String) × M (List α × List ρ)

/-- Statements of a thread. -/
inductive Stmt (α ρ : Type)
  /-- a call; `caught`: in a `try` block that catches the exception of `TerminatingError` -/
  | call (c : Call α ρ) (caught : Bool)
  /-- `Logger::SetOutputLevel(n)`, src/utils/logger.hpp:75-77, 168-171 -/
  | setLevel (n : Nat)

/-- read several splines -/
def readVars : List Nat → (List α → Act α ρ) → Act α ρ
  | [], k => k []
  | i :: is, k => .readVar i fun x => readVars is fun xs => k (x :: xs)

/-- write several splines -/
def writeVars : List Nat → List α → Act α ρ → Act α ρ
  | i :: is, x :: xs, k => .writeVar i x (writeVars is xs k)
  | _, _, k => k

/-- the end of a call, when its messages are sent and its result is known; `next` is the rest of the thread -/
def ending (c : Call α ρ) (caught : Bool) (outs : List ρ) (next : List ρ → Act α ρ) : M (List α × List ρ) → Act α ρ
  | .ok (ys, zs) => writeVars c.targets ys (next (outs ++ zs))
  | .error .throws => if caught then next outs else .stop outs (some .throws)
  | .error e => .stop outs (some e)

/-- The accesses of a program. -/
def code (enabled : Bool) (outs : List ρ) : List (Stmt α ρ) → Act α ρ
  | [] => .stop outs none
  | .call c caught :: p => readVars c.args fun xs => messages enabled (c.run xs).1 <|
    ending c caught outs (fun outs => code enabled outs p) (c.run xs).2
  | .setLevel n :: p => init enabled (.writeLevel n (init enabled (code enabled outs p)))

/-! ## Interleaving -/

/-- The state of a program: the memory, the threads, and the console, with the number of the thread that wrote each piece. -/
structure Config (α ρ : Type) where
  mem : Mem α
  threads : List (Act α ρ)
  console : List (Nat × String)

/-- Thread `i` makes a step (nothing happens if it has come to its end, or if there is no such thread). -/
def Config.step (c : Config α ρ) (i : Nat) : Config α ρ :=
  match c.threads[i]? with
  | none => c
  | some a =>
    let r := a.step c.mem
    ⟨r.1, c.threads.set i r.2.1, c.console ++ r.2.2.map fun s => (i, s)⟩

/-- The threads run as a scheduler tells. -/
def Config.run (c : Config α ρ) : List Nat → Config α ρ
  | [] => c
  | i :: sch => (c.step i).run sch

/-- The start: all threads at their beginning. -/
def start (enabled : Bool) (m : Mem α) (progs : List (List (Stmt α ρ))) : Config α ρ := ⟨m, progs.map (code enabled []), []⟩

/-! ## Calls of the library

with the messages of Model/Messages.lean. -/

/-- the function of the logger, src/utils/logger.hpp:97-147 -/
def LogKind.of : Bezman.Kind → LogKind
  | .logging => .logging
  | .extended => .extended
  | .error => .error
  | .terminating => .terminating

/-- the messages and the result of a function of the library; `f` tells what is written and what is returned -/
def heard {β : Type} (x : Said β) (f : β → List α × List ρ) : List (LogKind × String) × M (List α × List ρ) :=
  (x.log.map fun m => (LogKind.of m.kind, m.text), x.out.map f)

/-- Some members and operators of the library; `i`, `j`, `k`, `l` are variables. -/
inductive Op (K : Type)
  /-- `k = j;`, src/bezier_spline.hpp:213 -/
  | copy (k j : Nat)
  /-- `j.Evaluate(t)`, src/bezier_spline.inc:328-370 -/
  | evaluate (j : Nat) (t : List K)
  /-- `j.OrderElevateAlongParametricDimension(d);`, src/bezier_spline.inc:149-227 -/
  | elevate (j d : Nat)
  /-- `k = i + j;`, src/bezier_spline.inc:575-615 -/
  | add (k i j : Nat)
  /-- `i += j;`, src/bezier_spline.inc:617-640 -/
  | addAssign (i j : Nat)
  /-- `k = j.DerivativeWRTParametricDimension(orders);`, src/bezier_spline.inc:229-326 -/
  | derive (k j : Nat) (orders : List Nat)
  /-- `auto parts = j.SplitAtPosition(z, d); k = parts[0]; l = parts[1];`, src/bezier_spline.inc:1323-1416 -/
  | split (k l j : Nat) (z : K) (d : Nat)
  /-- `k = i - j;`, src/bezier_spline.inc:642-674 -/
  | sub (k i j : Nat)
  /-- `i -= j;`, src/bezier_spline.inc:676-699 -/
  | subAssign (i j : Nat)
  /-- `k = -j;`, src/bezier_spline.inc:553-563 -/
  | neg (k j : Nat)
  /-- `k = j * c;`, src/bezier_spline.inc:565-573 -/
  | scale (k j : Nat) (c : K)
  /-- `j.ForwardEvaluate(t)`, src/bezier_spline.inc:399-423 -/
  | forwardEvaluate (j : Nat) (t : List K)
  /-- `j.EvaluateDerivative(t, orders)`, src/bezier_spline.inc:458-484 -/
  | evaluateDerivative (j : Nat) (t : List K) (orders : List Nat)
  /-- `j.MinimumCorner()`, src/bezier_spline.inc:785-806 -/
  | minimumCorner (j : Nat)
  /-- `j.MaximumCorner()`, src/bezier_spline.inc:762-783 -/
  | maximumCorner (j : Nat)
  /-- `j.FitIntoUnitCube();`, src/bezier_spline.inc:831-848 -/
  | fit (j : Nat)
  /-- `k = i.Compose(j);`, src/bezier_spline.inc:908-931, for splines of the same type; `scalar`: their control points are numbers -/
  | compose (k i j : Nat) (scalar : Bool)

/-- What they read, write and send to the logger. `tx` is `std::to_string`. -/
def Op.call {K V : Type} [Zero K] [One K] [Sub K] [Neg K] [Mul K] [Div K] [NatCast K] [LT K] [DecidableLT K] [Zero V] [Add V] [SMul K V]
    [Add K] [Sub V] [Neg V] [Coords K V] (cfg : Cfg) (tx : K → String) : Op K → Call (Spline V) V
  | .copy k j => ⟨[j], [k], fun xs => heard (Said.lift (rd xs 0)) fun s => ([s], [])⟩
  | .evaluate j t => ⟨[j], [], fun xs => heard (Said.lift (rd xs 0) >>= fun s => Said.lift (s.evaluate t)) fun x => ([], [x])⟩
  | .elevate j d => ⟨[j], [j], fun xs => heard (Said.lift (rd xs 0) >>= fun s => Messages.orderElevate K s d) fun r => ([r], [])⟩
  | .add k i j => ⟨[i, j], [k], fun xs =>
      heard (Said.lift (rd xs 0) >>= fun s => Said.lift (rd xs 1) >>= fun t => Messages.addOp K cfg s t) fun r => ([r], [])⟩
  | .addAssign i j => ⟨[i, j], [i], fun xs =>
      heard (Said.lift (rd xs 0) >>= fun s => Said.lift (rd xs 1) >>= fun t => Messages.addAssign K cfg s t) fun r => ([r], [])⟩
  | .derive k j orders => ⟨[j], [k], fun xs =>
      heard (Said.lift (rd xs 0) >>= fun s => Messages.derivativeSpline K cfg s orders) fun r => ([r], [])⟩
  | .split k l j z d => ⟨[j], [k, l], fun xs =>
      heard (Said.lift (rd xs 0) >>= fun s => Messages.splitAt tx s z d) fun r => ([r.1, r.2], [])⟩
  | .sub k i j => ⟨[i, j], [k], fun xs =>
      heard (Said.lift (rd xs 0) >>= fun s => Said.lift (rd xs 1) >>= fun t => Messages.subOp K cfg s t) fun r => ([r], [])⟩
  | .subAssign i j => ⟨[i, j], [i], fun xs =>
      heard (Said.lift (rd xs 0) >>= fun s => Said.lift (rd xs 1) >>= fun t => Messages.subAssign K cfg s t) fun r => ([r], [])⟩
  | .neg k j => ⟨[j], [k], fun xs => heard (Said.lift (rd xs 0) >>= fun s => Said.lift s.negOp) fun r => ([r], [])⟩
  | .scale k j c => ⟨[j], [k], fun xs => heard (Said.lift (rd xs 0) >>= fun s => Said.lift (s.smulOp c)) fun r => ([r], [])⟩
  | .forwardEvaluate j t => ⟨[j], [], fun xs =>
      heard (Said.lift (rd xs 0) >>= fun s => Said.lift (s.forwardEvaluate cfg t)) fun x => ([], [x])⟩
  | .evaluateDerivative j t orders => ⟨[j], [], fun xs =>
      heard (Said.lift (rd xs 0) >>= fun s => Said.lift (s.evaluateDerivative cfg t orders)) fun x => ([], [x])⟩
  | .minimumCorner j => ⟨[j], [], fun xs => heard (Said.lift (rd xs 0) >>= fun s => Messages.minimumCorner K s) fun x => ([], [x])⟩
  | .maximumCorner j => ⟨[j], [], fun xs => heard (Said.lift (rd xs 0) >>= fun s => Messages.maximumCorner K s) fun x => ([], [x])⟩
  | .fit j => ⟨[j], [j], fun xs => heard (Said.lift (rd xs 0) >>= fun s => Messages.fitIntoUnitCube K s) fun r => ([r], [])⟩
  | .compose k i j scalar => ⟨[i, j], [k], fun xs =>
      heard (Said.lift (rd xs 0) >>= fun s => Said.lift (rd xs 1) >>= fun t => Messages.compose K cfg scalar s t) fun r => ([r], [])⟩

/-- Members and operators of splines of numbers. -/
inductive NumOp
  /-- `k = i * j;`, src/bezier_spline.inc:873-906 -/
  | mul (k i j : Nat)
  /-- `k = j.RaisePower(n);`, src/bezier_spline.inc:727-760 -/
  | power (k j n : Nat)

@[inherit_doc Op.call]
def NumOp.call {K : Type} [Zero K] [One K] [Add K] [Mul K] [Div K] [NatCast K] (cfg : Cfg) : NumOp → Call (Spline K) K
  | .mul k i j => ⟨[i, j], [k], fun xs =>
      heard (Said.lift (rd xs 0) >>= fun s => Said.lift (rd xs 1) >>= fun t => Said.lift (Spline.mulScalar cfg s t)) fun r => ([r], [])⟩
  | .power k j n => ⟨[j], [k], fun xs => heard (Said.lift (rd xs 0) >>= fun s => Messages.raisePower cfg s n) fun r => ([r], [])⟩

end Bezman.Threads
