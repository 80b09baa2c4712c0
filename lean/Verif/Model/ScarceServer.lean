/-
The event loop of `Verif.Model.Server` on a machine whose memory can run out, over the context of `Verif.Model.Scarce`.

* An allocation that fails in a completion handler outside the `try` blocks throws out of the handler and of `io_service::run`; nothing
  above catches it (`src/server.cpp:80-83`, `src/knuckleball.cpp:73-76`), so the process ends: the session and its handlers when a
  connection is accepted (`src/server.cpp:75-78`), the buffer that received bytes go to, the handler of a read (`src/server.cpp:110-112`),
  the string `response + "\n"` and the handler of a write (`src/server.cpp:136-139`).
* `std::getline` (`src/server.cpp:117`) catches the exception, sets `badbit` and returns; the program does not look at the state of the
  stream and goes on with the characters stored so far.  The others stay in the buffer, with the newline, except that up to `lost` of them
  may have been taken from the buffer and not stored (none in the GNU library, one in the LLVM library).
* If the parser of the handler fails (`src/server.cpp:118-124`), the exception is caught, and the actor is the empty string.

Simplification: connections are values, as in `Verif.Model.Server`.  This loses nothing: while the process lives no exception has left a
handler, so the owners of a session are those of `Verif.Model.Sessions`.
-/
import Verif.Model.Server
import Verif.Model.Scarce

namespace Knuckle.Scarce

open Heap (PosSort HCtx)

/-- The process, as `Server`. -/
structure SServer where
  pwd : Str
  ctx : HCtx
  conns : List Conn
  accepting : Bool

/-- `main` up to `Server::run`, as `Server.init`; memory suffices to start the server. -/
def SServer.init (pwd : Str) (ctx : HCtx) : SServer := ⟨pwd, ctx, [], true⟩

/-- How a completion handler ends, as `Ending`. -/
inductive Next
  | done (s : SServer)
  | dies
  | unspecified
  | ub

/-- `std::getline`, `src/server.cpp:117`: what is stored and what stays in the buffer.  The buffer holds `line`, a newline and `rest`; if
an allocation is refused, `k` characters have been stored. -/
def getLine (lost : Nat) (line rest : Str) : Option Nat → Str × Str
  | none => (line, rest)
  | some k => if k < line.length then (line.take k, line.drop (k + lost) ++ 10 :: rest) else (line, rest)

/-- The actor in the handler of a read, `src/server.cpp:118-124`. -/
def actorOf (line : Str) (f : Supply) : Res Str × Supply := match ask f with
  | (some _, f) => (.ok [], f)
  | (none, f) => (match parse line with
    | .ok p => .ok p.actor
    | .err _ => .ok []
    | .ub => .ub, f)

/-- `Session::do_write`, `src/server.cpp:135-145`. -/
def reply (s : SServer) (i : Nat) (c : Conn) (r : Str) (g : Supply) : Next := match (ask g).1 with
  | some _ => .dies
  | none => .done { s with conns := s.conns.set i { c with phase := .writing r } }

/-- The completion handler of a read after `std::getline`, `src/server.cpp:118-132`, as `handleLine`; `g` is for the allocations after
`Context::execute`. -/
def handleLine [PosSort] (s : SServer) (i : Nat) (c : Conn) (line rest : Str) (f g : Supply) : Next :=
  match actorOf line f with
  | (.ok actor, f) =>
    if c.sess.authed || isConnection actor then
      match execute s.pwd s.ctx (some c.sess) line f with
      | .done ctx' (some sess') out =>
        if sess'.connected then reply { s with ctx := ctx' } i { c with sess := sess', inbuf := rest } out g
        else .done { s with ctx := ctx', conns := s.conns.set i { c with sess := sess', inbuf := rest, phase := .dead } }
      | .done _ none _ => .ub
      | .dies => .dies
      | .unspecified => .unspecified
      | .ub => .ub
    else reply s i { c with inbuf := rest } Exc.notAuthenticated.text g
  | _ => .ub

/-- An event whose handler allocates and then leads to `s`. -/
def allocating (f : Supply) (s : SServer) : Next := match (ask f).1 with
  | some _ => .dies
  | none => .done s

/-- One event, as `Knuckle.step`, `src/server.cpp:66-145`. -/
def step [PosSort] (lost : Nat) (s : SServer) (e : Event) (f g : Supply) : Option Next := match e with
  | .accept => if s.accepting then some (allocating f { s with conns := s.conns ++ [Conn.init s.pwd] }) else none
  | .acceptErr => if s.accepting then some (.done { s with accepting := false }) else none
  | .recv i bytes => match s.conns[i]? with
    | some c => if c.phase = .dead then none
      else some (allocating f { s with conns := s.conns.set i { c with inbuf := c.inbuf ++ bytes } })
    | none => none
  | .read i => match s.conns[i]? with
    | some c => if c.phase = .reading then
        match splitLine c.inbuf with
        | some (line, rest) =>
          let p := getLine lost line rest (ask f).1
          some (handleLine s i c p.1 p.2 (ask f).2 g)
        | none => none
      else none
    | none => none
  | .readErr i => match s.conns[i]? with
    | some c => if c.phase = .reading then some (.done { s with conns := s.conns.set i { c with phase := .dead } }) else none
    | none => none
  | .wrote i => match s.conns[i]? with
    | some c => match c.phase with
      | .writing r =>
        if r.length + 1 ≤ 65536 then
          some (allocating f { s with conns := s.conns.set i { c with phase := .reading, out := c.out ++ (r ++ [10]) } })
        else none
      | _ => none
    | none => none
  | .wroteShort i => match s.conns[i]? with
    | some c => match c.phase with
      | .writing _ => some .ub
      | _ => none
    | none => none
  | .writeErr i => match s.conns[i]? with
    | some c => match c.phase with
      | .writing _ => some (.done { s with conns := s.conns.set i { c with phase := .dead } })
      | _ => none
    | none => none

/-- A history of events, each with what becomes of its allocations; `none` if some event of it cannot happen. -/
def run [PosSort] (lost : Nat) (s : SServer) : List (Event × Supply × Supply) → Option Next
  | [] => some (.done s)
  | (e, f, g) :: es => match step lost s e f g with
    | some (.done s') => run lost s' es
    | o => o

end Knuckle.Scarce
