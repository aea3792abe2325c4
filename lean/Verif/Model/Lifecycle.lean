import Verif.Model.DataLink
import Verif.Model.Network
import Verif.Model.WriteCmd
/-!
# device.go, network/base.go, network/whois.go: a client from opening to closing; the commands read, whois, write and multi

The first part follows the socket, the receive loops and the datagrams of one client.  The
second part are the commands of package cmd that are one sequence of calls; the package does
not compile at this commit (cmd/cmd/readprop.go:53), this is the text of the functions.
-/

namespace Bac.Life

/-- A client: whether it has a data link (device.go:99), whether its socket is open, whether
`os.Stderr`, the output of its logger (device.go:95, logrus `New`), is open, the number of
receive loops waiting for a datagram, the datagrams in the buffer of the socket, and those
handed to `handleMsg`, oldest first. -/
structure State (δ : Type) where
  link : Bool
  sock : Bool
  stderr : Bool := true
  loops : Nat := 0
  queue : List δ := []
  handled : List δ := []
  crashed : Bool := false

/-- device.go:98-114: the client that `NewClient` returns. -/
def start (δ : Type) (o : Opened) : State δ := { link := o.link.isSome, sock := o.link.isSome }

/-- What happens in a step: a receive loop is started, a datagram arrives at the socket, a
datagram is handed over, a receive loop ends with an error while the socket is open, a receive
loop ends because it is closed, `ClientClose` is called.  device.go:117-129, 285-300. -/
inductive Label (δ : Type) where
  | run
  | arrive (d : δ)
  | handle (d : δ)
  | error
  | exit
  | close (logs : Bool)

/-- One step.  Reading a datagram and starting its goroutine (device.go:122-127) is one step;
which of the loops reads it is left open; datagrams that do not fit in the buffer of the socket
are left out, and so is what the goroutines do. -/
inductive Step {δ : Type} : State δ → Label δ → State δ → Prop where
  /-- device.go:117 `ClientRun`, in a goroutine: cmd/cmd/discover.go:60, network/base.go:52-57 with
  network/whois.go:11, 17, 23. -/
  | run (s : State δ) (hc : s.crashed = false) (hl : s.link = true) : Step s .run { s with loops := s.loops + 1 }
  /-- device.go:122: `Receive` of the nil interface. -/
  | crash (s : State δ) (hc : s.crashed = false) (hl : s.link = false) : Step s .run { s with crashed := true }
  /-- The system puts a datagram into the buffer of the socket (datalink/udp.go:76). -/
  | arrive (s : State δ) (d : δ) (hc : s.crashed = false) (hs : s.sock = true) :
      Step s (.arrive d) { s with queue := s.queue ++ [d] }
  /-- device.go:119-127. -/
  | handle (s : State δ) (d : δ) (q : List δ) (hc : s.crashed = false) (hs : s.sock = true) (hl : 0 < s.loops)
      (hq : s.queue = d :: q) : Step s (.handle d) { s with queue := q, handled := s.handled ++ [d] }
  /-- device.go:119, 122-124: an error of the socket ends the loop. -/
  | error (s : State δ) (hc : s.crashed = false) (hs : s.sock = true) (hl : 0 < s.loops) :
      Step s .error { s with loops := s.loops - 1 }
  /-- device.go:119, 122-124: so does the error of a closed socket. -/
  | exit (s : State δ) (hc : s.crashed = false) (hs : s.sock = false) (hl : 0 < s.loops) :
      Step s .exit { s with loops := s.loops - 1 }
  /-- device.go:285-290 `ClientClose(true)`: the output of the logger is an `io.Closer`, so
  `Close` is not reached. -/
  | closeLogs (s : State δ) (hc : s.crashed = false) : Step s (.close true) { s with stderr := false }
  /-- device.go:291-301 `ClientClose(false)`, `Close`; datalink/udp.go:88-93. -/
  | close (s : State δ) (hc : s.crashed = false) : Step s (.close false) { s with sock := false, queue := [] }

/-- The steps of an execution, oldest first.  device.go:117-129, 285-300. -/
inductive Exec {δ : Type} (s : State δ) : List (Label δ) → State δ → Prop where
  | nil : Exec s [] s
  | snoc {tr l u t} (h : Exec s tr u) (st : Step u l t) : Exec s (tr ++ [l]) t

end Bac.Life

namespace Bac

/-! ## The commands -/

/-- How a command ends: with the error of opening the network printed, by `log.Fatal`, by
returning, or with what a call returned printed or logged.
cmd/cmd/readprop.go:46-104, cmd/cmd/whoIs.go:26-65, cmd/cmd/writeprop.go:65-181, cmd/cmd/readmultiprop.go:26-169. -/
inductive CommandEnd (α : Type) where
  | reported (e : LinkErr ⊕ NetErr)
  | fatal
  | nothing
  | result (r : Except CallErr α)
  deriving Repr

/-- cmd/cmd/readprop.go:47-52 and cmd/cmd/whoIs.go:31-35 with network/base.go:20-38: the network
made by `New` from interface and port; its store is nil. -/
def openNetwork (free : Int → Bool) (i : Iface) (port : Int) : Outcome (Except (LinkErr ⊕ NetErr) Network) :=
  match newClient free { iface := some i, port := port } with
  | .ok o =>
    match o.err with
    | some e => .ok (.error (.inl e))
    | none =>
      match newNetwork { store := none } [] with
      | .ok (.ok n) => .ok (.ok n)
      | .ok (.error e) => .ok (.error (.inr e))
      | .panic k => .panic k
      | .diverge => .diverge
  | .panic k => .panic k
  | .diverge => .diverge

/-- cmd/cmd/readprop.go:45-101 and cmd/cmd/whoIs.go:29-65: the start; `rest` is what follows the
opening of the network (cmd/cmd/readprop.go:53-101, whoIs.go:36-64). -/
def networkCommand {α : Type} (free : Int → Bool) (i : Iface) (port : Int)
    (rest : Network → List Sent × Outcome (CommandEnd α)) : List Sent × Outcome (CommandEnd α) :=
  match openNetwork free i port with
  | .ok (.ok n) => rest n
  | .ok (.error e) => ([], .ok (.reported e))
  | .panic k => ([], .panic k)
  | .diverge => ([], .diverge)

/-- cmd/cmd/writeprop.go:69-75, cmd/cmd/readmultiprop.go:31-37: the start of the commands write and multi;
the error of `NewClient` is dropped.  Without a link the goroutine `ClientRun` crashes, and so does the
first call (readprop.go:26, writeprop.go:23: `GetMyAddress` of the nil interface). -/
def clientCommand {α : Type} (free : Int → Bool) (i : Iface) (port : Int)
    (rest : Link → List Sent × Outcome (CommandEnd α)) : List Sent × Outcome (CommandEnd α) :=
  match newClient free { iface := some i, port := port } with
  | .ok o =>
    match o.link with
    | some l => rest l
    | none => ([], .panic .nilDeref)
  | .panic k => ([], .panic k)
  | .diverge => ([], .diverge)

/-- cmd/cmd/writeprop.go:64-181. -/
def runWrite (free : Int → Bool) (i : Iface) (port : Int) (fuel : Nat) (t : Parsers) (f : WriteFlags)
    (rid wid : Option UInt8) (rs ws : Nat → Attempt) : List Sent × Outcome (CommandEnd Unit) :=
  clientCommand free i port fun l =>
    let r := writeCommand fuel l.my t f rid wid rs ws
    (r.1, r.2.bind fun e => .ok (match e with
      | .fatal => .fatal
      | .nothing => .nothing
      | .written w => .result w))

/-- The flags of multi (cmd/cmd/readmultiprop.go:171-179). -/
structure MultiFlags where
  ip : Host
  port : Int := 47808
  network : Int := 0
  mstp : Int := 0
  deviceId : Int := 1234

/-- cmd/cmd/readmultiprop.go:39-52, 71-74. -/
def MultiFlags.dest (f : MultiFlags) : Device :=
  { addr := { net := UInt16.ofInt f.network, mac := ipBytes f.ip (UInt16.ofInt f.port),
              adr := [UInt8.ofInt f.mstp] } }

/-- cmd/cmd/readmultiprop.go:55-69, 88-102: a property of the device object. -/
def MultiFlags.question (f : MultiFlags) (prop : UInt32) : PropertyData :=
  { object := { id := ⟨8, UInt32.ofInt f.deviceId⟩, properties := [⟨prop, arrayAll, .one .nil, 0⟩] } }

/-- cmd/cmd/readmultiprop.go:111-161: name (77) and present value (85) of the analog outputs (1)
number 1 and 2. -/
def multiObjects : List Object :=
  [{ id := ⟨1, 1⟩, properties := [⟨77, arrayAll, .one .nil, 0⟩] }, { id := ⟨1, 1⟩, properties := [⟨85, arrayAll, .one .nil, 0⟩] },
   { id := ⟨1, 2⟩, properties := [⟨77, arrayAll, .one .nil, 0⟩] }, { id := ⟨1, 2⟩, properties := [⟨85, arrayAll, .one .nil, 0⟩] }]

/-- cmd/cmd/readmultiprop.go:39-169: `ids` and `scripts` are the invoke ids and the events of the
three calls.  The limit read (62) is used for the last call; the object list (76) is read and not
used. -/
def multiCommand (fuel : Nat) (my : Address) (f : MultiFlags) (ids : Nat → Option UInt8)
    (scripts : Nat → Nat → Attempt) : List Sent × Outcome (CommandEnd (List Object)) :=
  let r1 := clientReadProperty fuel my f.dest (f.question 62) (ids 0) (scripts 0)
  match r1.2 with
  | .panic k => (r1.1, .panic k)
  | .diverge => (r1.1, .diverge)
  | .ok (.error _) => (r1.1, .ok .fatal)
  | .ok (.ok out) =>
    let dev := { f.dest with maxApdu := toUint32 out }
    let r2 := clientReadProperty fuel my dev (f.question 76) (ids 1) (scripts 1)
    match r2.2 with
    | .panic k => (r1.1 ++ r2.1, .panic k)
    | .diverge => (r1.1 ++ r2.1, .diverge)
    | .ok (.error _) => (r1.1 ++ r2.1, .ok .fatal)
    | .ok (.ok _) =>
      let r3 := clientReadMulti fuel my dev multiObjects (ids 2) (scripts 2)
      (r1.1 ++ r2.1 ++ r3.1, r3.2.bind fun r => .ok (.result r))

/-- cmd/cmd/readmultiprop.go:26-169. -/
def runMulti (free : Int → Bool) (i : Iface) (port : Int) (fuel : Nat) (f : MultiFlags)
    (ids : Nat → Option UInt8) (scripts : Nat → Nat → Attempt) :
    List Sent × Outcome (CommandEnd (List Object)) :=
  clientCommand free i port fun l => multiCommand fuel l.my f ids scripts

end Bac
