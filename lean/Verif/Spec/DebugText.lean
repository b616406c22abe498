import Verif.Model.DebugText

/-!
# The lines that debugging a tracker process adds to the log

What each message says, and the line that it makes. `fmtInt` is the decimal number of C.
-/

namespace Trax.Spec
open Trax.Debug (Report)

/-- What a message says. -/
def told : Report → Str
  | .socketOpened port => b!"Socket opened successfully on port " ++ fmtInt port ++ b!"."
  | .cleaningUp => b!"Cleaning up."
  | .closingSocket => b!"Closing server socket."
  | .deletedClient => b!"Deleted stale client"
  | .creating command => b!"Creating process " ++ command
  | .directory path => b!"Working directory is " ++ path
  | .starting => b!"Starting process"
  | .notStarted => b!"Unable to start process"
  | .settingUpSocket => b!"Setting up TraX with TCP socket connection"
  | .settingUpStreams true => b!"Setting up TraX with dedicated streams connection"
  | .settingUpStreams false => b!"Setting up TraX with standard streams connection"
  | .notConnected => b!"Unable to establish connection."
  | .processId id => b!"Tracker process ID: " ++ fmtInt id
  | .connected => b!"Connection with tracker established."
  | .stopping => b!"Trying to stop process using protocol."
  | .terminating => b!"Trying to terminate process nicely."
  | .killing => b!"Escalating to brute-force termination."
  | .terminated => b!"Process should be terminated."
  | .stoppingLogger => b!"Stopping logger."
  | .exitedNormally => b!"Tracker exited normally."
  | .exitedSignal signal => b!"Tracker exited (stopped by signal " ++ fmtInt signal ++ b!")"
  | .exitedCode code => b!"Tracker exited (exit code " ++ fmtInt code ++ b!")"
  | .flushing => b!"Flushing streams"
  | .stoppingLoggerThread => b!"Stopping logger thread"
  | .resetting => b!"Resetting program."

/-- The line of a message in the log. -/
def toldLine (r : Report) : Str := b!"CLIENT: " ++ told r ++ b!"\n"

/-- A message about values that exist: numbers of the type `int`, and strings without zero bytes. -/
def Possible : Report → Prop
  | .socketOpened n | .processId n | .exitedSignal n | .exitedCode n => -2 ^ 31 ≤ n ∧ n < 2 ^ 31
  | .creating s | .directory s => (0 : Byte) ∉ s
  | _ => True

/-- The strings in a message are not too long: the commands are shorter than 1006 bytes, the directories shorter than 1002. -/
def Brief : Report → Prop
  | .creating command => command.length < 1006
  | .directory path => path.length < 1002
  | _ => True

end Trax.Spec
