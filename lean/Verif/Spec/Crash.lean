/-
The log file after the process was killed.
-/
import Verif.Spec.Log

namespace Knuckle.Spec

/-- The contents the log file can have after the process was killed in state `s` or while it handled an event in state `s`: the lines
written so far (each is flushed by `std::endl`, `src/context.cpp:169`), and some first part of the line that was being written, if one
was.  (A crash of the operating system or a request with undefined behaviour may do anything to the file.) -/
inductive FileAfterCrash [StdSort] (s : Server) : Str → Prop
  | between {t} : LogText s.ctx.fileLog t → FileAfterCrash s t
  | during {t e s' stamp r p} : LogText s.ctx.fileLog t → step s e = some (.done s') → s'.ctx.fileLog = s.ctx.fileLog ++ [r] →
      Stamp stamp → p <+: logLine stamp r → FileAfterCrash s (t ++ p)

/-- `u` is the text without an incomplete line at its end. -/
def CompleteLines (text u : Str) : Prop := ∃ rest, text = u ++ rest ∧ c!"\n" ∉ rest ∧ (u = [] ∨ u.getLast? = some c!"\n")

end Knuckle.Spec
