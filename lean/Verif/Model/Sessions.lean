/-
A second, lower model of `src/server.cpp`: `Session` objects live in memory and are kept alive by the `std::shared_ptr`s
captured in the completion handlers of pending operations.  `Verif.Model.Server` describes a connection by its phase; here
there is no phase, but

* a `Session` object with the number of shared pointers to it: the last one destroys the object and closes its socket;
* the list of pending asynchronous operations with their completion handlers;
* the context with pointers (`Verif.Model.Heap`).

A completion handler is run once, after its operation was taken from the list; it and the pointer `self` it captured are
destroyed when it returns.  Using an object that is gone is undefined behaviour.  The assumptions about Boost.Asio are those
of `Verif.Model.Server`.  Simplification: the number of an accepted connection is its address, so an address is not used
again (see `Verif.Model.Heap`).
-/
import Verif.Model.Heap
import Verif.Model.Server

namespace Knuckle.Heap

/-- A `Session` object, `src/server.h:78-82`: its flags, and its `_streambuf` together with the bytes that have arrived at
its socket but have not been read yet. -/
structure Sock where
  sess : Session
  inbuf : Str
deriving DecidableEq, Repr

/-- The memory of `Session` objects: each with the number of shared pointers to it. -/
structure Socks where
  next : Nat
  cells : Nat → Option (Sock × Nat)

/-- Overwrite one address. -/
def Socks.put (m : Socks) (p : Nat) (c : Option (Sock × Nat)) : Socks :=
  { m with cells := fun q => if q = p then c else m.cells q }

/-- `std::make_shared<Session>`: one pointer to the new object. -/
def Socks.new (m : Socks) (c : Sock) : Socks :=
  { next := m.next + 1, cells := fun q => if q = m.next then some (c, 1) else m.cells q }

/-- Copying a `std::shared_ptr`; also `shared_from_this`. -/
def Socks.copy (p : Nat) (m : Socks) : Option Socks := match m.cells p with
  | some (c, n) => some (m.put p (some (c, n + 1)))
  | none => none

/-- Destroying a `std::shared_ptr`: the last one destroys the object. -/
def Socks.release (p : Nat) (m : Socks) : Option Socks := match m.cells p with
  | some (_, 1) => some (m.put p none)
  | some (c, n + 2) => some (m.put p (some (c, n + 1)))
  | _ => none

/-- Assigning to members of the object. -/
def Socks.store (p : Nat) (c : Sock) (m : Socks) : Option Socks := match m.cells p with
  | some (_, n) => some (m.put p (some (c, n)))
  | none => none

/-- A pending asynchronous operation with its completion handler. -/
inductive Handler
  /-- `src/server.cpp:67-72` -/
  | accept
  /-- `src/server.cpp:112-134`; captured `self` -/
  | read (p : Nat)
  /-- `src/server.cpp:139-144`; captured `self` -/
  | write (p : Nat) (reply : Str)
deriving DecidableEq, Repr

/-- The process: the password, the context, the `Session` objects, the pending operations, and the bytes written to each
connection so far. -/
structure HServer where
  pwd : Str
  ctx : HCtx
  socks : Socks
  pending : List Handler
  wires : List Str

/-- `main` up to `Server::run`, `src/knuckleball.cpp:73-76`, `src/server.cpp:51-56,80-83`: an accept is started. -/
def HServer.init (pwd : Str) (ctx : HCtx) : HServer := ⟨pwd, ctx, ⟨0, fun _ => none⟩, [.accept], []⟩

/-- An action on the `Session` objects; `none` is undefined behaviour. -/
def HServer.act (s : HServer) (f : Socks → Option Socks) : Outcome HServer := match f s.socks with
  | some m => .done { s with socks := m }
  | none => .ub

/-- Sequencing. -/
def andThen {α β : Type} (x : Outcome α) (f : α → Outcome β) : Outcome β := match x with
  | .done a => f a
  | .ub => .ub

/-- Start an operation whose handler captures `self`, `src/server.cpp:111-134,138-144`: `self` is a pointer obtained from
`shared_from_this`, the handler has a copy of it, and the local one is destroyed on return. -/
def start (p : Nat) (h : Handler) (s : HServer) : Outcome HServer :=
  andThen (s.act (Socks.copy p)) fun s =>
  andThen (s.act (Socks.copy p)) fun s =>
  ({ s with pending := s.pending ++ [h] }).act (Socks.release p)

/-- `Session::do_read`, `src/server.cpp:110-135`. -/
def doRead (p : Nat) (s : HServer) : Outcome HServer := start p (.read p) s

/-- `Session::do_write`, `src/server.cpp:137-146`. -/
def doWrite (p : Nat) (reply : Str) (s : HServer) : Outcome HServer := start p (.write p reply) s

/-- `Server::do_accept`, `src/server.cpp:66-73`. -/
def doAccept (s : HServer) : HServer := { s with pending := s.pending ++ [.accept] }

/-- `Server::handle_accept`, `src/server.cpp:75-78`: the pointer returned by `make_shared` is a temporary. -/
def handleAccept (s : HServer) : Outcome HServer :=
  let p := s.socks.next
  let s := { s with socks := s.socks.new ⟨Session.init s.pwd, []⟩, wires := s.wires ++ [[]] }
  andThen (doRead p s) fun s =>
  andThen (s.act (Socks.release p)) fun s =>
  .done (doAccept s)

/-- `Context::get_instance()->execute(input, self)`, `src/server.cpp:126`: the parameter is a copy of `self`, destroyed on
return; the session is changed in place. -/
def executeLine [PosSort] (p : Nat) (sock : Sock) (line : Str) (s : HServer) : Outcome (HServer × Session × Str) :=
  andThen (s.act (Socks.copy p)) fun s =>
  match execute s.pwd s.ctx (some sock.sess) line with
  | .done (ctx', some sess', out) =>
    andThen (({ s with ctx := ctx' }).act (Socks.store p { sock with sess := sess' })) fun s =>
    andThen (s.act (Socks.release p)) fun s => .done (s, sess', out)
  | _ => .ub

/-- The completion handler of the read, `src/server.cpp:113-133`, when a line was read; `self` is destroyed with it. -/
def readHandler [PosSort] (p : Nat) (sock : Sock) (line rest : Str) (s : HServer) : Outcome HServer :=
  andThen (s.act (Socks.store p { sock with inbuf := rest })) fun s =>
  let actor : Res Str := match parse line with
    | .ok p => .ok p.actor
    | .err _ => .ok []
    | .ub => .ub
  andThen (match actor with
    | .ok actor =>
      if sock.sess.authed || isConnection actor then
        andThen (executeLine p { sock with inbuf := rest } line s) fun (s, sess', out) =>
        if sess'.connected then doWrite p out s else .done s
      else doWrite p Exc.notAuthenticated.text s
    | _ => .ub) fun s =>
  s.act (Socks.release p)

/-- The reply a handler writes to connection `i`. -/
def Handler.writes (i : Nat) : Handler → Option Str
  | .write j r => if j = i then some r else none
  | _ => none

/-- The operation is taken from the list. -/
def HServer.take (s : HServer) (h : Handler) : HServer := { s with pending := s.pending.erase h }

/-- One event, `src/server.cpp:66-145`; `none` if it cannot happen now. -/
def hstep [PosSort] (s : HServer) : Event → Option (Outcome HServer)
  | .accept => if Handler.accept ∈ s.pending then some (handleAccept (s.take .accept)) else none
  | .acceptErr => if Handler.accept ∈ s.pending then some (.done (s.take .accept)) else none
  | .recv i bytes => match s.socks.cells i with
    | some (c, n) => some (.done { s with socks := s.socks.put i (some ({ c with inbuf := c.inbuf ++ bytes }, n)) })
    | none => none
  | .read i =>
    if Handler.read i ∈ s.pending then
      match s.socks.cells i with
      | some (c, _) => match splitLine c.inbuf with
        | some (line, rest) => some (readHandler i c line rest (s.take (.read i)))
        | none => none
      | none => some .ub
    else none
  | .readErr i => if Handler.read i ∈ s.pending then some ((s.take (.read i)).act (Socks.release i)) else none
  | .wrote i => match s.pending.findSome? (Handler.writes i) with
    | some reply =>
      if reply.length + 1 ≤ 65536 then
        some (andThen (doRead i { s.take (.write i reply) with wires := s.wires.modify i (· ++ (reply ++ [10])) }) fun s =>
          s.act (Socks.release i))
      else none
    | none => none
  | .wroteShort i => match s.pending.findSome? (Handler.writes i) with
    | some _ => some .ub
    | none => none
  | .writeErr i => match s.pending.findSome? (Handler.writes i) with
    | some reply => some ((s.take (.write i reply)).act (Socks.release i))
    | none => none

/-- A history of events; `none` if some event of it cannot happen. -/
def hrun [PosSort] (s : HServer) : List Event → Option (Outcome HServer)
  | [] => some (.done s)
  | e :: es => match hstep s e with
    | none => none
    | some .ub => some .ub
    | some (.done s') => hrun s' es

end Knuckle.Heap
