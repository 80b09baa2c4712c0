/-
What the users of the process rely on, in terms of the abstract machine (`Verif.Spec.Machine`), of the bytes clients send and
receive, and of the log file; nothing here refers to the program (but the options of the command line).
-/
import Verif.Spec.Machine
import Verif.Model.Main

namespace Knuckle.Spec

/-- What is known at the start: no variables. -/
def nothing (prec : Int) (eps : Fl) : Data := ⟨fun _ => none, ⟨prec, eps⟩⟩

/-- The machine, started with what is known as `d`, executes the requests `log`, one at a time, and then knows `d'`; these are, for
each connection, the first lines of the bytes it sent, and `wires`, the bytes written to the connections, are the replies to them,
of each connection all but perhaps the last. -/
structure Conforms (pwd : Str) (d : Data) (es : List Event) (wires : List Str) (log : List Request) (d' : Data) : Prop where
  trace : Trace pwd d log d'
  known : ∀ q ∈ log, q.conn < wires.length
  oneLine : ∀ q ∈ log, (10 : Byte) ∉ q.line
  sent : ∀ i, ∃ rest, received i es = wire ((requestsOf i log).map Request.line) ++ rest
  received : ∀ i w, wires[i]? = some w → ∃ n, w = wire (((requestsOf i log).take n).map Request.reply) ∧ (requestsOf i log).length ≤ n + 1

/-- The settings a command line asks for. -/
structure Asks (cl : CommandLine) (pwd : Str) (prec : Int) (eps : Fl) : Prop where
  password : pwd = cl.password.getD []
  precision : prec = cl.floatPrecision.getD 3
  given : ∀ e, cl.floatComparisonTolerance = some e → eps = e
  default : cl.floatComparisonTolerance = none → Denotes b!"Float" b!"0.0000001" (.float eps)

end Knuckle.Spec
