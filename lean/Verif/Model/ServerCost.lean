/-
The read handler of the server once more, counting the steps the parser takes in it.
-/
import Verif.Model.Cost
import Verif.Model.Server

namespace Knuckle

/-- The completion handler of the read after a line was taken, `src/server.cpp:114-132`, with the steps of the parser: the
handler parses the line itself (`src/server.cpp:120-125`) and, if it executes it, `Context::execute` parses it once more
(`src/context.cpp:148`).  The work of the messages themselves is not counted. -/
def handleLineC [StdSort] (s : Server) (i : Nat) (c : Conn) (line rest : Str) : Counted (Outcome Server) :=
  let p := parseC line
  let actor : Res Str := match p.1 with
    | .ok q => .ok q.actor
    | .err _ => .ok []
    | .ub => .ub
  match actor with
  | .ok actor =>
    if c.sess.authed || isConnection actor then
      match execute s.pwd s.ctx (some c.sess) line with
      | .done (ctx', some sess', out) =>
        (.done { s with
          ctx := ctx'
          conns := s.conns.set i
            { c with sess := sess', inbuf := rest, phase := if sess'.connected then .writing out else .dead } },
          p.2 + (parseC line).2)
      | _ => (.ub, p.2 + (parseC line).2)
    else
      (.done { s with conns := s.conns.set i { c with inbuf := rest, phase := .writing Exc.notAuthenticated.text } }, p.2)
  | _ => (.ub, p.2)

/-- One event with the steps of the parser, `src/server.cpp:66-145`: only the handler of a read parses. -/
def stepC [StdSort] (s : Server) (e : Event) : Option (Counted (Outcome Server)) :=
  match e with
  | .read i => match s.conns[i]? with
    | some c => if c.phase = .reading then
        match splitLine c.inbuf with
        | some (line, rest) => some (handleLineC s i c line rest)
        | none => none
      else none
    | none => none
  | e => (step s e).map fun o => (o, 0)

end Knuckle
