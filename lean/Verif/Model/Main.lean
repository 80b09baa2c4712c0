/-
Model of `src/knuckleball.cpp`: `main`.

The parsing of the command line is Boost.Program_options: its result is the map of the options given, with converted
values, or an exception.
-/
import Verif.Model.Server

namespace Knuckle

/-- The options given on the command line, `src/knuckleball.cpp:41-53`. -/
structure CommandLine where
  help : Bool
  quiet : Bool
  port : Option Int
  password : Option Str
  logfile : Option Str
  floatPrecision : Option Int
  floatComparisonTolerance : Option Fl
deriving DecidableEq, Repr

/-- The default of `--floatcomparisontolerance`, `src/knuckleball.cpp:52`: the `double` literal converted to `float`. -/
def defaultTolerance : Fl := (atof b!"0.0000001").toF32

/-- What `main` does. -/
inductive Started
  /-- the usage message is printed and the process ends with `EXIT_SUCCESS` -/
  | usage
  /-- an error message is printed and the process ends with `EXIT_FAILURE` -/
  | failed
  /-- the constructor of `Server` throws an exception, which nobody catches -/
  | aborted
  /-- the event loop runs -/
  | serving (s : Server)

/-- `main`, `src/knuckleball.cpp:40-78`; `none` if `parse_command_line` or `store` throws.  `opens` tells which files can be opened,
`binds` whether the address is valid and the port is free.  A negative answer of `opens` is not noticed by the code
(`src/context.cpp:52-53`). -/
def main (opens : Str → Bool) (binds : Bool) : Option CommandLine → Started
  | none => .failed
  | some o =>
    if o.help then .usage
    else if o.port.isNone then .failed
    else if !binds then .aborted
    else
      let logfile := o.logfile.getD []
      .serving (Server.init (o.password.getD [])
        (Ctx.init (o.floatPrecision.getD 3) (o.floatComparisonTolerance.getD defaultTolerance) (logfile != [] && opens logfile) o.quiet))

end Knuckle
