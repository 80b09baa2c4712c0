/-
Model of `src/knuckleball.cpp` on top of the server with pointers (`Verif.Model.Sessions`): the whole process.
-/
import Verif.Model.Main
import Verif.Model.Sessions

namespace Knuckle.Heap

/-- `main`, `src/knuckleball.cpp:40-78`, as in `Knuckle.main`, up to the start of the event loop; `none` if the process ends before
that. -/
def hmain (opens : Str → Bool) (binds : Bool) : Option CommandLine → Option HServer
  | none => none
  | some o =>
    if o.help then none
    else if o.port.isNone then none
    else if !binds then none
    else
      let logfile := o.logfile.getD []
      some (HServer.init (o.password.getD [])
        (HCtx.init (o.floatPrecision.getD 3) (o.floatComparisonTolerance.getD defaultTolerance) (logfile != [] && opens logfile) o.quiet))

end Knuckle.Heap
