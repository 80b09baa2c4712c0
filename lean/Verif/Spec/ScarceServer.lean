/-
What clients of the server observe on a machine whose memory can run out.
-/
import Verif.Model.ScarceServer
import Verif.Spec.Server
import Verif.Spec.Scarce
import Verif.Spec.Undefined

namespace Knuckle.Spec

open Scarce (Supply)

/-- A piece of what a client sent that the server took for a request, and the bytes taken with it that are no part of it; what became of
the allocations. -/
structure Piece extends Request where
  skipped : Str
  memory : Supply
deriving DecidableEq

/-- The pieces of connection `i`, in order. -/
def piecesOf (i : Nat) (log : List Piece) : List Piece := log.filter fun q => q.conn == i

/-- The piece is a line, without its newline; or memory ran out, and it is a part of a line, behind which up to `lost` bytes are lost. -/
def Taken (lost : Nat) (q : Piece) : Prop :=
  (10 : Byte) ∉ q.line ∧ (q.skipped = [10] ∨ Refused q.memory ∧ (10 : Byte) ∉ q.skipped ∧ q.skipped.length ≤ lost)

/-- The requests of the log that were answered by "null". -/
def agreed (log : List Piece) : List Request := (log.map Piece.toRequest).filter fun q => q.reply == b!"null"

/-- `ScarceSerial pwd c log c'`, as `Serial`: executing the requests of `log` one after the other from context `c`, with what becomes of
their allocations, can give the replies of the log and lead to `c'`.  A connection is authenticated once the server has answered the
password by "null".  A request of a connection that is not authenticated is not executed unless it is a statement to `Connection`, and
sometimes not even then, if memory runs out. -/
inductive ScarceSerial [StdSort] (pwd : Str) (c : Ctx) : List Piece → Ctx → Prop
  | nil : ScarceSerial pwd c [] c
  | executed {log c' c'' s s'} {q : Piece} : ScarceSerial pwd c log c' → ¬ Closed (agreed log) q.conn →
      SessionAfter pwd (agreed log) q.conn s → (Authenticated pwd (agreed log) q.conn ∨ ToConnection q.line) →
      Scarcely pwd c' (some s) q.line q.memory c'' (some s') q.reply → ScarceSerial pwd c (log ++ [q]) c''
  | ignored {log c'} {q : Piece} : ScarceSerial pwd c log c' → ¬ Closed (agreed log) q.conn →
      ¬ Authenticated pwd (agreed log) q.conn → (ToConnection q.line → Refused q.memory) →
      q.reply = b!"AuthenticationError: not authenticated." → ScarceSerial pwd c (log ++ [q]) c'

/-- `ScarceExplains lost pwd c es s log`, as `Explains`: the state `s` that the server, started with context `c`, has reached after the
events `es` is the one after the serial execution of `log`; the bytes that arrived at each connection are its pieces, in order, and those
that wait in the buffer; the replies are what has been written.  A connection is authenticated and ended as the replies say. -/
structure ScarceExplains [StdSort] (lost : Nat) (pwd : Str) (c : Ctx) (es : List Event) (s : Server) (log : List Piece) : Prop where
  serial : ScarceSerial pwd c log s.ctx
  known : ∀ q ∈ log, q.conn < s.conns.length
  taken : ∀ q ∈ log, Taken lost q
  password : s.pwd = pwd
  accepting : s.accepting = true ↔ .acceptErr ∉ es
  unknown : ∀ i, s.conns.length ≤ i → received i es = [] ∧ .readErr i ∉ es ∧ .writeErr i ∉ es
  session : ∀ i k, s.conns[i]? = some k → SessionAfter pwd (agreed log) i k.sess
  input : ∀ i k, s.conns[i]? = some k → received i es = ((piecesOf i log).map fun q => q.line ++ q.skipped).flatten ++ k.inbuf
  output : ∀ i k, s.conns[i]? = some k → Written es (agreed log) i k ((piecesOf i log).map fun q => q.reply)
  ended : ∀ i k, s.conns[i]? = some k → (k.phase = .dead ↔ Closed (agreed log) i ∨ .readErr i ∈ es ∨ .writeErr i ∈ es)

/-- The event completes a read of a connection in the state `k`, and `line`, the beginning of what waits there, is executed. -/
def Executes (s : Server) (e : Event) (k : Conn) (line : Str) : Prop :=
  ∃ i, e = .read i ∧ s.conns[i]? = some k ∧ line <+: k.inbuf ∧ (k.sess.authed = true ∨ ToConnection line)

/-- What can end the process during an event: memory runs out while a connection is accepted, bytes are received, the next read is
started or a reply is written; or a request is executed, as in `Fatal`. -/
def EndsProcess [StdSort] (s : Server) (e : Event) (f g : Supply) : Prop :=
  (Refused f ∧ (e = .accept ∨ (∃ i bytes, e = .recv i bytes) ∨ ∃ i, e = .wrote i)) ∨
  (Refused g ∧ ∃ i, e = .read i) ∨
  ∃ k line, Executes s e k line ∧ Fatal s.pwd s.ctx (some k.sess) line f

/-- What can leave a vector unspecified: memory runs out while strings are sorted. -/
def Unsorted (s : Server) (e : Event) (f : Supply) : Prop :=
  Refused f ∧ ∃ k line n x y l, Executes s e k line ∧ k.sess.authed = true ∧ Statement line n b!"sort" [] ∧
    Holds s.ctx n (.vector b!"String" (.string x :: .string y :: l))

/-- What can be undefined behaviour: a reply does not fit into the socket at once; or a request of an authenticated connection. -/
def Undefined (s : Server) (e : Event) : Prop :=
  (∃ i, e = .wroteShort i) ∨ ∃ k line, Executes s e k line ∧ k.sess.authed = true ∧ UndefinedCause s.ctx (some k.sess) line

end Knuckle.Spec
