import Verif.Model.DataLink
import Mathlib.Logic.Function.Basic
import Mathlib.Logic.Relation
/-!
# network/base.go, network/store.go: the networks of a process

Which sockets a process has, which clients hold them, which `Network` values hold the clients, and which of these the
program can still get hold of.  Only what matters for opening and closing is kept; devices are in Model/Network.lean,
the receive loops in Model/Lifecycle.lean.
-/

namespace Bac.Process

/-- The clients made so far, each with the port of its socket while that is open; the `Network` values made so far
(network/base.go:9-17), each with the client in its field `bacnet`; those the program has a pointer to; and the networks in
the store (network/store.go:13-15; one store for the process), by their key. -/
structure State where
  clients : List (Option Int) := []
  nets : List (Option Nat) := []
  known : Nat → Bool := fun _ => false
  store : List Nat → Option Nat := fun _ => none

/-- Is the port used by a socket of the process?.  datalink/udp.go:76. -/
def State.taken (s : State) (p : Int) : Bool := s.clients.contains (some p)

/-- Does `net.ListenUDP` succeed (datalink/udp.go:76)?  It binds to the port on all interfaces; `sys` tells whether the
rest of the system allows it; for port 0 a free one is chosen. -/
def State.free (sys : Int → Bool) (s : State) (p : Int) : Bool := p == 0 || (sys p && !s.taken p)

/-- The port that the socket gets.  datalink/udp.go:75-76. -/
def State.Gets (sys : Int → Bool) (s : State) (p q : Int) : Prop := q ≠ 0 ∧ s.free sys q = true ∧ (p ≠ 0 → q = p)

/-- device.go:70-93, datalink/udp.go:27-43, 51-67: the port that `ListenUDP` is asked for.  Without an interface it is the
subnet (device.go:92). -/
def boundPort (cb : Config) : Int :=
  let p := match cb.iface with
    | some _ => cb.port
    | none => cb.subnet
  resolvePort (if p = 0 then 0xBAC0 else p)

/-- One step of the program.  A step that changes nothing (an error of `NewClient`, network/base.go:28-30, network/store.go:34-36;
`GetNetwork` of a key that is not there) is left out. -/
inductive Step (sys : Int → Bool) : State → State → Prop where
  /-- the program makes a `Network` value -/
  | alloc (s) : Step sys s { s with
      nets := s.nets ++ [none]
      known := fun r => s.known r || r == s.nets.length }
  /-- network/base.go:20-38 `New` of a network with a store -/
  | new (s r cb key o l q) (hr : s.known r = true) (hn : newClient (s.free sys) cb = .ok o) (hl : o.link = some l)
      (hq : s.Gets sys l.listen q) : Step sys s { s with
        clients := s.clients ++ [some q]
        nets := s.nets.set r (some s.clients.length)
        store := Function.update s.store key (some r) }
  /-- the same with a store that is empty (an error, line 35) or nil (a panic, line 32) -/
  | newNoStore (s r cb o l q) (hr : s.known r = true) (hn : newClient (s.free sys) cb = .ok o) (hl : o.link = some l)
      (hq : s.Gets sys l.listen q) : Step sys s { s with
        clients := s.clients ++ [some q]
        nets := s.nets.set r (some s.clients.length) }
  /-- network/store.go:25-47 `NewNetwork` -/
  | storeNew (s cb key o l q) (hn : newClient (s.free sys) cb = .ok o) (hl : o.link = some l)
      (hq : s.Gets sys l.listen q) : Step sys s { s with
        clients := s.clients ++ [some q]
        nets := s.nets ++ [some s.clients.length]
        store := Function.update s.store key (some s.nets.length) }
  /-- the same with an empty store (line 45) -/
  | storeNewNoStore (s cb o l q) (hn : newClient (s.free sys) cb = .ok o) (hl : o.link = some l)
      (hq : s.Gets sys l.listen q) : Step sys s { s with
        clients := s.clients ++ [some q]
        nets := s.nets ++ [some s.clients.length] }
  /-- datalink/udp.go:83-84: a panic after the socket was opened -/
  | newPanic (s cb k q) (hn : newClient (s.free sys) cb = .panic k) (hq : s.Gets sys (boundPort cb) q) :
      Step sys s { s with clients := s.clients ++ [some q] }
  /-- network/store.go:49-56 `GetNetwork` -/
  | get (s key r) (h : s.store key = some r) : Step sys s { s with known := fun x => s.known x || x == r }
  /-- network/store.go:59-84 `UpdateDevice`: a device takes the key -/
  | device (s key) : Step sys s { s with store := Function.update s.store key none }
  /-- network/base.go:40-51 `NetworkClose(false)`, device.go:285-301 -/
  | close (s r c) (hr : s.known r = true) (hc : s.nets[r]? = some (some c)) : Step sys s { s with clients := s.clients.set c none }
  /-- the program forgets a pointer -/
  | forget (s r) : Step sys s { s with known := Function.update s.known r false }

/-- Reachable states of a process.  network/base.go:20-50, network/store.go:25-56. -/
def Reach (sys : Int → Bool) (s : State) : Prop := Relation.ReflTransGen (Step sys) {} s

end Bac.Process
