import Verif.Common.PyStr

/-!
# Model of the log messages (`log/logger.py` and `KpexCLI.setup_logging`, kpex_cli.py 745–788)

What the Python library and Rich do is modelled as far as it decides which message goes where: the effective level of a logger
(`logging.Logger.getEffectiveLevel`: a level of 0 means the level of the parent logger), the levels and filters of handlers
(`Logger.callHandlers`, `Handler.handle`), `LogRecord.getMessage` and what happens if it fails (`RichHandler.emit` passes the
exception on, `FileHandler.emit` reports it on the error output).  Rich's markup is an arbitrary function `markup` from a text to the
text that is shown, or an exception.  Times, colours, wrapping of lines and source locations are left out.
-/

namespace Verif.Logging

/-- `LogLevel`, log/logger.py 33–42 (`DEFAULT` is another name of `SUBPROCESS`). -/
inductive Level where
  | ALL | DEBUG | SUBPROCESS | VERBOSE | INFO | WARNING | ERROR | CRITICAL
deriving DecidableEq, Repr

/-- log/logger.py 34–41. -/
def Level.value : Level → Nat
  | .ALL => 0 | .DEBUG => 10 | .SUBPROCESS => 12 | .VERBOSE => 15 | .INFO => 20 | .WARNING => 30 | .ERROR => 40 | .CRITICAL => 50

/-- The names, log/logger.py 34–41; they are also made the names of the levels of records, 109–110. -/
def Level.name : Level → Str
  | .ALL => "ALL".toList | .DEBUG => "DEBUG".toList | .SUBPROCESS => "SUBPROCESS".toList | .VERBOSE => "VERBOSE".toList
  | .INFO => "INFO".toList | .WARNING => "WARNING".toList | .ERROR => "ERROR".toList | .CRITICAL => "CRITICAL".toList

/-- The members of the enumeration in order (aliases are not iterated over). -/
def levels : List Level := [.ALL, .DEBUG, .SUBPROCESS, .VERBOSE, .INFO, .WARNING, .ERROR, .CRITICAL]

/-- `LogLevel[name]`: look-up by name, aliases included (kpex_cli.py 456). -/
def byName (n : Str) : Option Level :=
  if n = "DEFAULT".toList then some .SUBPROCESS else levels.find? fun l => l.name = n

/-- A Python object as far as it matters for the look-up by value. -/
inductive Obj where
  | int (n : Nat) | str (s : Str)
deriving DecidableEq

/-- `LogLevel(value)`: look-up by value; a text is not equal to a number (`type=LogLevel`, netlist_cli.py 85). -/
def byValue (v : Obj) : Option Level := levels.find? fun l => Obj.int l.value = v

/-- A call of one of the log functions (log/logger.py 145–185): level, text and arguments for its placeholders. -/
structure Msg where
  level : Level
  text : Str
  args : List Str := []

/-- `text % args`.  Simplified: only `%s` and `%%`. -/
def percent : Str → List Str → Except String Str
  | [], [] => .ok []
  | [], _ :: _ => .error "TypeError: not all arguments converted during string formatting"
  | '%' :: 's' :: s, a :: as => do let r ← percent s as; .ok (a ++ r)
  | '%' :: 's' :: _, [] => .error "TypeError: not enough arguments for format string"
  | '%' :: '%' :: s, as => do let r ← percent s as; .ok ('%' :: r)
  | '%' :: _, _ => .error "ValueError: unsupported format character"
  | c :: s, as => do let r ← percent s as; .ok (c :: r)

/-- `LogRecord.getMessage`: without arguments the text is taken as it is. -/
def message (m : Msg) : Except String Str := if m.args = [] then .ok m.text else percent m.text m.args

/-- Where a handler writes: on the console as it is, on the console as markup, to the plain or the formatted log file. -/
inductive Sink where
  | raw | markup | plain | formatted
deriving DecidableEq

/-- `LogLevelFilter`, log/logger.py 60–70. -/
structure Filter where
  levels : List Str
  invert : Bool := false

/-- log/logger.py 66–70. -/
def Filter.passes (f : Filter) (levelname : Str) : Bool :=
  if f.invert then !decide (levelname ∈ f.levels) else decide (levelname ∈ f.levels)

structure Handler where
  sink : Sink
  level : Nat := 0
  filters : List Filter := []

/-- The logger `__kpex__` and the level of its parent, the root logger of Python, which is `WARNING` (30). -/
structure Logger where
  level : Nat
  handlers : List Handler
  parent : Nat := 30

/-- What is visible after a message: lines of the console and of the two log files. -/
structure Out where
  console : List Str := []
  plain : List Str := []
  formatted : List Str := []
deriving DecidableEq

/-- `LogLevelFormatter.format`, log/logger.py 50–57. -/
def consoleText (l : Level) (msg : Str) : Str := match l with
  | .WARNING => "[yellow]".toList ++ msg
  | .ERROR => "[red]".toList ++ msg
  | _ => msg

/-- The format `[%(asctime)s] [%(levelname)s]    %(message)s` without the time (kpex_cli.py 774). -/
def fileText (l : Level) (msg : Str) : Str := "[".toList ++ l.name ++ "]    ".toList ++ msg

/-- The handler writes the message.  A message that cannot be put together ends a console handler with the exception; a file
handler writes nothing (it reports on the error output). -/
def emit (markup : Str → Except String Str) (h : Handler) (m : Msg) (o : Out) : Except String Out :=
  match h.sink with
  | .raw => do let s ← message m; .ok { o with console := o.console ++ [s] }
  | .markup => do let s ← message m; let t ← markup (consoleText m.level s); .ok { o with console := o.console ++ [t] }
  | .plain => match message m with
    | .ok s => .ok { o with plain := o.plain ++ [s] }
    | .error _ => .ok o
  | .formatted => match message m with
    | .ok s => .ok { o with formatted := o.formatted ++ [fileText m.level s] }
    | .error _ => .ok o

/-- `Logger.getEffectiveLevel`. -/
def effective (l : Logger) : Nat := if l.level ≠ 0 then l.level else l.parent

/-- `Logger.log`: nothing below the effective level; else every handler in turn whose level is reached and whose filters pass the
record. -/
def log (markup : Str → Except String Str) (l : Logger) (m : Msg) (o : Out) : Except String Out :=
  if effective l ≤ m.level.value then
    l.handlers.foldlM (fun o h => if h.level ≤ m.level.value ∧ h.filters.all (·.passes m.level.name) then emit markup h m o else .ok o) o
  else .ok o

def logs (markup : Str → Except String Str) (l : Logger) (ms : List Msg) (o : Out) : Except String Out :=
  ms.foldlM (fun o m => log markup l m o) o

/-- `configure_logger`, log/logger.py 106–142. -/
def configured : Logger where
  level := Level.SUBPROCESS.value
  handlers := [⟨.raw, 0, [⟨["SUBPROCESS".toList], false⟩]⟩, ⟨.markup, 0, [⟨["SUBPROCESS".toList], true⟩]⟩]

/-- `register_log_file_handler`, kpex_cli.py 746–753. -/
def register (s : Sink) (l : Logger) : Logger := { l with handlers := l.handlers ++ [⟨s, Level.SUBPROCESS.value, []⟩] }

/-- The logger while the arguments are validated (kpex_cli.py 771–776): the two handlers of the console and the two files. -/
def validating : Logger := register .formatted (register .plain configured)

/-- `deregister_additional_handler`: each of the four handlers of a run writes to another place, by which it is identified here. -/
def deregister (s : Sink) (l : Logger) : Logger := { l with handlers := l.handlers.filter fun h => decide (h.sink ≠ s) }

/-- The logger for the rest of the run (kpex_cli.py 784–788): each file handler is removed and registered again with the moved file
(the file and its content are the subject of `LogFiles`), then the level is set. -/
def running (chosen : Level) : Logger :=
  { register .formatted (deregister .formatted (register .plain (deregister .plain validating))) with level := chosen.value }

/-- The messages of a run of `kpex` with valid arguments: `pre` during validation, `post` afterwards. -/
def session (markup : Str → Except String Str) (chosen : Level) (pre post : List Msg) : Except String Out := do
  let o ← logs markup validating pre {}
  logs markup (running chosen) post o

/-- The names listed by `render_enum_help` for the levels (util/argparse_helpers.py 31–47). -/
def listed : List Str := (levels.map fun l => l.name.map Char.toLower)

end Verif.Logging
