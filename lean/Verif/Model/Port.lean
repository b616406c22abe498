import Verif.Model.Outcome

/-!
# Choosing the socket port (`support/client/client.cpp` 222–255, 324–328)
-/

namespace Trax

/-- `TRAX_DEFAULT_PORT` (`support/client/include/trax/client.hpp` 35). -/
def traxDefaultPort : Int := 9090

/-- The part of `TrackerProcess::State` about the socket. `listening` is the port on which the socket
was created. -/
structure ServerSocket where
  listening : Int
  socketPort : Int
  deriving DecidableEq, Repr

/-- The loop of the constructor (`support/client/client.cpp` 240–247) with the given number of attempts
left. `free` tells for which ports `create_server_socket` (80–131) succeeds; the descriptor it returns
is positive (a descriptor 0 would be taken for a failure by the loop, but would not be an error
afterwards). The result is the port bound, if any, and the new value of `next_available_socket_port`.
Simplified: the state of the ports does not change during the loop. -/
def tryPorts (free : Int → Bool) : Nat → Int → Option Int × Int
  | 0, next => (none, next)
  | attempts + 1, next =>
    let port := next
    let next := next + 1
    let next := if next > 65535 then traxDefaultPort else next
    if free port then (some port, next) else tryPorts free attempts next

/-- The construction of a tracker process with a socket connection (`support/client/client.cpp` 238–255);
`none` stands for the exception of line 249. -/
def openServerSocket (free : Int → Bool) (next : Int) : Option ServerSocket × Int :=
  match tryPorts free 10 next with
  | (some port, next) => (some ⟨port, next - 1⟩, next)
  | (none, next) => (none, next)

/-- A history of constructions: the state of the ports at each of them. The counter is a global
variable (`support/client/client.cpp` 224). -/
def openServerSockets (next : Int) : List (Int → Bool) → List (Option ServerSocket)
  | [] => []
  | free :: rest => (openServerSocket free next).1 :: openServerSockets (openServerSocket free next).2 rest

end Trax
