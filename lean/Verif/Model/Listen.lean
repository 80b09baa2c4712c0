/-
Model of where the server listens: `main` of `src/knuckleball.cpp` with the options `--bind` and `--port`, and the constructor of
`Server` (`src/server.cpp`).
-/
import Verif.Model.Main

namespace Knuckle

/-- The options given on the command line, with `--bind`, `src/knuckleball.cpp:41-53`.  `--port` is converted to `int` by
Boost.Program_options. -/
structure StartOptions extends CommandLine where
  bind : Option Str
deriving DecidableEq, Repr

/-- The conversion of the `int` to the `unsigned short` parameter of `boost::asio::ip::tcp::endpoint`, `src/server.cpp:53`: modulo 2^16. -/
def portNumber (p : Int) : Nat := (p % 65536).toNat

/-- What the operating system and Boost.Asio contribute: `parses` is `boost::asio::ip::address::from_string` (`none`: it throws), `free` tells
whether the acceptor can be opened, bound and put to listening (`src/server.cpp:54`; if not its constructor throws; port 0 asks for any port). -/
structure Network (A : Type) where
  parses : Str → Option A
  free : A → Nat → Bool

/-- What comes of the start: as `Started`, with the address and the port. -/
inductive Launched (A : Type)
  | usage
  | failed
  | aborted
  | serving (s : Server) (address : A) (port : Nat)

/-- `main`, `src/knuckleball.cpp:40-78`, with `Server::Server`, `src/server.cpp:51-56`: the address is parsed before the acceptor is opened; nobody
catches what they throw. -/
def launch {A : Type} (opens : Str → Bool) (net : Network A) : Option StartOptions → Launched A
  | none => .failed
  | some o =>
    if o.help then .usage
    else match o.port with
      | none => .failed
      | some p =>
        match net.parses (o.bind.getD b!"0.0.0.0") with
        | none => .aborted
        | some a =>
          if net.free a (portNumber p) then
            let logfile := o.logfile.getD []
            .serving (Server.init (o.password.getD [])
              (Ctx.init (o.floatPrecision.getD 3) (o.floatComparisonTolerance.getD defaultTolerance) (logfile != [] && opens logfile) o.quiet))
              a (portNumber p)
          else .aborted

end Knuckle
