/-
What clients of the server observe, independently of the event loop: byte streams made of lines, and executions of whole
requests one at a time.
-/
import Verif.Model.Server
import Verif.Spec.Answers

namespace Knuckle.Spec

/-- A request on the wire: the connection it came from, its line (without the newline) and the reply (without the newline). -/
structure Request where
  conn : Nat
  line : Str
  reply : Str
deriving DecidableEq

/-- The requests of connection `i`, in order. -/
def requestsOf (i : Nat) (log : List Request) : List Request := log.filter fun q => q.conn == i

/-- Texts as lines on the wire. -/
def wire (ls : List Str) : Str := (ls.map fun l => l ++ [10]).flatten

/-- All bytes that arrived at connection `i`. -/
def received (i : Nat) : List Event → Str
  | [] => []
  | .recv j bytes :: es => if j = i then bytes ++ received i es else received i es
  | _ :: es => received i es

/-- The line is a statement to `Connection`. -/
def ToConnection (line : Str) : Prop := ∃ name args, Statement line b!"Connection" name args

/-- The line presents the password `pwd`. -/
def Presents (pwd line : Str) : Prop :=
  ∃ a, Statement line b!"Connection" b!"authenticateWithPassword:" [a] ∧ StringLiteral a pwd

/-- The line is `Connection close;`. -/
def Closes (line : Str) : Prop := Statement line b!"Connection" b!"close" []

/-- The connection is authenticated after the requests of the log: there is no password or it has presented it. -/
def Authenticated (pwd : Str) (log : List Request) (i : Nat) : Prop :=
  pwd = [] ∨ ∃ q ∈ log, q.conn = i ∧ Presents pwd q.line

/-- The connection has been closed by one of the requests of the log. -/
def Closed (log : List Request) (i : Nat) : Prop := ∃ q ∈ log, q.conn = i ∧ Closes q.line

/-- The state of a connection after the requests of the log. -/
def SessionAfter (pwd : Str) (log : List Request) (i : Nat) (s : Session) : Prop :=
  (s.authed = true ↔ Authenticated pwd log i) ∧ (s.connected = true ↔ ¬ Closed log i)

/-- `Serial pwd c log c'`: executing the requests of `log` one after the other, each completely before the next, from
context `c`, gives the replies of the log and leads to `c'`.  A request of a connection that is not authenticated is not
executed unless it is a statement to `Connection`; a connection that was closed makes no more requests. -/
inductive Serial [StdSort] (pwd : Str) (c : Ctx) : List Request → Ctx → Prop
  | nil : Serial pwd c [] c
  | executed {log c' c'' i line reply s s'} : Serial pwd c log c' → ¬ Closed log i → SessionAfter pwd log i s →
      (Authenticated pwd log i ∨ ToConnection line) → execute pwd c' (some s) line = .done (c'', some s', reply) →
      Serial pwd c (log ++ [⟨i, line, reply⟩]) c''
  | ignored {log c' i line} : Serial pwd c log c' → ¬ Closed log i → ¬ Authenticated pwd log i → ¬ ToConnection line →
      Serial pwd c (log ++ [⟨i, line, b!"AuthenticationError: not authenticated."⟩]) c'

/-- Only the last reply has not been written. -/
def AllButLast (out : Str) (replies : List Str) : Prop := ∃ rs r, replies = rs ++ [r] ∧ out = wire rs

/-- What has been written to connection `i`, which got these replies: all of them, as lines, while it waits for the next
request; all but the last one while that one is being written; if it has ended, all but the last one if it was closed by
request or a write failed, otherwise all. -/
def Written (es : List Event) (log : List Request) (i : Nat) (k : Conn) (replies : List Str) : Prop :=
  match k.phase with
  | .reading => k.out = wire replies
  | .writing r => ∃ rs, replies = rs ++ [r] ∧ k.out = wire rs
  | .dead => (Closed log i ∨ .writeErr i ∈ es → AllButLast k.out replies) ∧
      (¬ (Closed log i ∨ .writeErr i ∈ es) → k.out = wire replies)

/-- `Explains pwd c es s log`: the state `s` that the server, started with context `c`, has reached after the events `es`
is the one after the serial execution of `log`; the requests of each connection are, in order, the first lines of the
bytes that arrived, the rest of the bytes waits in the buffer, and the replies are what has been written.  A connection
has ended if it was closed by request or a read or write failed. -/
structure Explains [StdSort] (pwd : Str) (c : Ctx) (es : List Event) (s : Server) (log : List Request) : Prop where
  serial : Serial pwd c log s.ctx
  known : ∀ q ∈ log, q.conn < s.conns.length
  oneLine : ∀ q ∈ log, (10 : Byte) ∉ q.line
  password : s.pwd = pwd
  accepting : s.accepting = true ↔ .acceptErr ∉ es
  unknown : ∀ i, s.conns.length ≤ i → received i es = [] ∧ .readErr i ∉ es ∧ .writeErr i ∉ es
  session : ∀ i k, s.conns[i]? = some k → SessionAfter pwd log i k.sess
  input : ∀ i k, s.conns[i]? = some k → received i es = wire ((requestsOf i log).map Request.line) ++ k.inbuf
  output : ∀ i k, s.conns[i]? = some k → Written es log i k ((requestsOf i log).map Request.reply)
  ended : ∀ i k, s.conns[i]? = some k → (k.phase = .dead ↔ Closed log i ∨ .readErr i ∈ es ∨ .writeErr i ∈ es)

end Knuckle.Spec
