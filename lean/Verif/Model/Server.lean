/-
Model of `src/server.cpp`: the event loop.

`io_service::run` is called by one thread (`src/server.cpp:80-83`, `src/knuckleball.cpp:75-76`), so completion handlers
run one at a time, each to its end.  A state of the server is a point between two handlers; an event is either a change
in the outside world (bytes arriving) or the run of one completion handler.  `step` returns `none` for an event that
cannot happen in that state.

What is assumed of Boost.Asio (its documented behaviour, >= 1.58):
* `async_read_until(…, '\n', …)` completes without error only when the buffer contains a newline; bytes behind the first
  newline stay in the buffer for the next read.  It may complete with an error at any time instead.
* `async_accept` completes once.
* `async_write` performs one or more partial writes; each takes at most 65536 bytes (`default_max_transfer_size`), and
  the first one is attempted inside the call of `async_write`, while the temporary `response + "\n"` of
  `src/server.cpp:139` still exists.  Any further partial write, which happens if the first one did not take everything,
  reads the buffer of a destroyed string: undefined behaviour (event `wroteShort`).
-/
import Verif.Model.Context

namespace Knuckle

/-- What a connection waits for. -/
inductive Phase
  /-- an `async_read_until` is pending, `src/server.cpp:112` -/
  | reading
  /-- an `async_write` of the reply is pending, `src/server.cpp:139` -/
  | writing (reply : Str)
  /-- nothing is pending: the session object has been destroyed and with it the socket closed -/
  | dead
deriving DecidableEq, Repr

/-- A connection: the `Session` object, its `_streambuf` together with the bytes that have arrived at the socket but have
not been read yet, and the bytes written to the socket so far. -/
structure Conn where
  sess : Session
  inbuf : Str
  phase : Phase
  out : Str
deriving DecidableEq, Repr

/-- The process: the password, the context, all connections ever accepted, and whether an `async_accept` is pending. -/
structure Server where
  pwd : Str
  ctx : Ctx
  conns : List Conn
  accepting : Bool
deriving DecidableEq, Repr

/-- `main` up to `Server::run`, `src/knuckleball.cpp:73-76`, `src/server.cpp:51-56,80-83`. -/
def Server.init (pwd : Str) (ctx : Ctx) : Server := ⟨pwd, ctx, [], true⟩

/-- `io_service::run` returns, and with it `Server::run` and `main` (`src/server.cpp:80-83`, `src/knuckleball.cpp:76`), when no
asynchronous operation is pending: no accept, read or write. -/
def Server.stopped (s : Server) : Prop := s.accepting = false ∧ ∀ k ∈ s.conns, k.phase = .dead

/-- Events. -/
inductive Event
  /-- the pending accept completes without error -/
  | accept
  /-- the pending accept completes with an error -/
  | acceptErr
  /-- bytes arrive at connection `i` -/
  | recv (i : Nat) (bytes : Str)
  /-- the pending read of connection `i` completes without error -/
  | read (i : Nat)
  /-- the pending read of connection `i` completes with an error (end of file, reset, …) -/
  | readErr (i : Nat)
  /-- the pending write of connection `i` completes: everything was taken by the first partial write -/
  | wrote (i : Nat)
  /-- the first partial write of connection `i` did not take everything -/
  | wroteShort (i : Nat)
  /-- the pending write of connection `i` completes with an error -/
  | writeErr (i : Nat)
deriving DecidableEq, Repr

/-- `std::getline`, `src/server.cpp:117`: the bytes before the first newline, and those behind it. -/
def splitLine : Str → Option (Str × Str)
  | [] => none
  | c :: cs => if c == 10 then some ([], cs) else (splitLine cs).map fun (l, r) => (c :: l, r)

/-- `Server::handle_accept`, `src/server.cpp:75-78`: a new session starts reading and a new accept is started. -/
def Conn.init (pwd : Str) : Conn := ⟨Session.init pwd, [], .reading, []⟩

/-- The completion handler of the read after a line was taken, `src/server.cpp:114-132`. -/
def handleLine [StdSort] (s : Server) (i : Nat) (c : Conn) (line rest : Str) : Outcome Server :=
  let actor : Res Str := match parse line with
    | .ok p => .ok p.actor
    | .err _ => .ok []
    | .ub => .ub
  match actor with
  | .ok actor =>
    if c.sess.authed || isConnection actor then
      match execute s.pwd s.ctx (some c.sess) line with
      | .done (ctx', some sess', out) =>
        .done { s with
          ctx := ctx'
          conns := s.conns.set i
            { c with sess := sess', inbuf := rest, phase := if sess'.connected then .writing out else .dead } }
      | _ => .ub
    else
      .done { s with conns := s.conns.set i { c with inbuf := rest, phase := .writing Exc.notAuthenticated.text } }
  | _ => .ub

/-- One event, `src/server.cpp:66-145`; `none` if it cannot happen now. -/
def step [StdSort] (s : Server) : Event → Option (Outcome Server)
  | .accept => if s.accepting then some (.done { s with conns := s.conns ++ [Conn.init s.pwd] }) else none
  | .acceptErr => if s.accepting then some (.done { s with accepting := false }) else none
  | .recv i bytes => match s.conns[i]? with
    | some c => if c.phase = .dead then none
      else some (.done { s with conns := s.conns.set i { c with inbuf := c.inbuf ++ bytes } })
    | none => none
  | .read i => match s.conns[i]? with
    | some c => if c.phase = .reading then
        match splitLine c.inbuf with
        | some (line, rest) => some (handleLine s i c line rest)
        | none => none
      else none
    | none => none
  | .readErr i => match s.conns[i]? with
    | some c => if c.phase = .reading then some (.done { s with conns := s.conns.set i { c with phase := .dead } }) else none
    | none => none
  | .wrote i => match s.conns[i]? with
    | some c => match c.phase with
      | .writing reply =>
        if reply.length + 1 ≤ 65536 then
          some (.done { s with conns := s.conns.set i { c with phase := .reading, out := c.out ++ (reply ++ [10]) } })
        else none
      | _ => none
    | none => none
  | .wroteShort i => match s.conns[i]? with
    | some c => match c.phase with
      | .writing _ => some .ub
      | _ => none
    | none => none
  | .writeErr i => match s.conns[i]? with
    | some c => match c.phase with
      | .writing _ => some (.done { s with conns := s.conns.set i { c with phase := .dead } })
      | _ => none
    | none => none

/-- A history of events; `none` if some event of it cannot happen. -/
def run [StdSort] (s : Server) : List Event → Option (Outcome Server)
  | [] => some (.done s)
  | e :: es => match step s e with
    | none => none
    | some .ub => some .ub
    | some (.done s') => run s' es

end Knuckle
