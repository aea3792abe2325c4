import Verif.Model.Discovery
/-!
# whois.go, whatnetwork.go, whoisrouter.go, iam.go: the calls around a subscription

The three discovery calls start a goroutine that sends the request, and subscribe at the
same time.  Both goroutines write the variable `err` of the call (`values, err :=` declares
`values` only, since `err` is declared in the same block).  A step below is one access to
`err`, to the channel `errChan`, or one effect outside of the call.

Simplifications: accesses to `err` are atomic and seen at once by the other goroutine (Go
promises less, as the accesses race); a publication reaches the subscription in one step
(Model/Utsm.lean has the steps; that the last message may stay in the channel is kept); the encoding of the request is not repeated here
(`whoIsPack`: it does not fail).
-/

namespace Bac

/-- device.go:249-280: the datagram for a header and its payload (whois.go:36-48, 63-65). -/
def whoIsFrame (my broadcast : Address) (o : WhoIsOpts) : Outcome (Except GoErr (List UInt8)) := do
  let p ← whoIsPack my (o.dest broadcast) o.limits.1 o.limits.2
  match p.2 with
  | some e => .ok (.error e)
  | none => .ok (sendFrame (o.dest broadcast) p.1 none)

/-- whatnetwork.go:20-39 (`typ` 0x12) and whoisrouter.go:15-34 (`typ` 0): the datagram;
the frame kind is set to Original-Broadcast. -/
def networkRequestFrame (my broadcast : Address) (typ : UInt8) : Outcome (Except GoErr (List UInt8)) := do
  let e ← Enc.new.npdu { version := 1, destination := some broadcast, source := some my, isNetworkLayerMessage := true,
                         networkLayerMessageType := typ, hopCount := 255 }
  .ok (sendFrame broadcast e.buf (some ⟨true, 11⟩))

/-- iam.go:12-28 `IAm`: the datagrams sent and the error returned; `link` is what the data
link returns.  The error of the encoder is not looked at. -/
def clientIAm (dest : Address) (i : IAm) (link : Option GoErr) : List Sent × Outcome (Option GoErr) :=
  match (do let e ← Enc.new.npdu { version := 1, destination := some dest, hopCount := 255 }
            e.iAm i : Outcome (Enc × Option GoErr)) with
  | .ok (e, _) =>
    match sendFrame dest e.buf none with
    | .ok frame => ([⟨dest, frame⟩], .ok link)
    | .error err => ([], .ok (some err))
  | .panic k => ([], .panic k)
  | .diverge => ([], .diverge)

namespace DCall

/-- The goroutine of whois.go:62-65, whatnetwork.go:38-41, whoisrouter.go:33-36: before the
send, with its result assigned to `err`, waiting at `errChan <- err` with the value read,
and done. -/
inductive Sender (ε : Type) where
  | start
  | assigned
  | offering (x : Option ε)
  | done
  deriving DecidableEq, Repr

/-- The call itself (whois.go:66-115): the goroutine is started and the subscription is not
yet entered, the subscription is entered, `Subscribe` has returned, its error (always nil,
utsm/subscriber.go:67) is assigned to `err`, the call waits at `<-errChan`, it has assigned
what it received, it has returned an error or the values. -/
inductive Main (ε : Type) where
  | spawned
  | listening
  | left
  | assigned
  | receiving
  | received
  | returned (r : Except ε (List Published))

/-- The state of a call.  whois.go:61-73, whatnetwork.go:36-50, whoisrouter.go:31-45. -/
structure State (ε : Type) where
  main : Main ε := .spawned
  sender : Sender ε := .start
  err : Option ε := none
  values : List Published := []

/-- What happens in a step.  whois.go:61-73, whatnetwork.go:36-50, whoisrouter.go:31-45. -/
inductive Label (ε : Type) where
  | send (e : Option ε)
  | read
  | enter
  | publish (id : Int) (v : Published)
  | leave
  | assign
  | check
  | receive
  | finish

/-- One step of a call that subscribes to `lo` to `hi`; `reports` is true for `WhoIs`, whose
errors are returned, and false for the other two calls, which go on (whatnetwork.go:43-49,
whoisrouter.go:38-44). -/
inductive Step {ε : Type} (lo hi : Int) (reports : Bool) : State ε → Label ε → State ε → Prop where
  /-- whois.go:63: `_, err = c.Send(…)`. -/
  | send (s : State ε) (e : Option ε) (h : s.sender = .start) :
      Step lo hi reports s (.send e) { s with sender := .assigned, err := e }
  /-- whois.go:64: the value sent is read. -/
  | read (s : State ε) (h : s.sender = .assigned) :
      Step lo hi reports s .read { s with sender := .offering s.err }
  /-- utsm/subscriber.go:55: the subscription is entered. -/
  | enter (s : State ε) (h : s.main = .spawned) : Step lo hi reports s .enter { s with main := .listening }
  /-- utsm/utsm.go:61-73: a publication that the subscription gets. -/
  | got (s : State ε) (id : Int) (v : Published) (h : s.main = .listening) (hr : lo ≤ id ∧ id ≤ hi) :
      Step lo hi reports s (.publish id v) { s with values := s.values ++ [v] }
  /-- utsm/utsm.go:61-73: a publication that it does not get. -/
  | other (s : State ε) (id : Int) (v : Published) (h : s.main = .listening → ¬ (lo ≤ id ∧ id ≤ hi)) :
      Step lo hi reports s (.publish id v) s
  /-- utsm/subscriber.go:62-67, 56: a timeout, and the subscription is removed. -/
  | leave (s : State ε) (h : s.main = .listening) : Step lo hi reports s .leave { s with main := .left }
  /-- utsm/subscriber.go:65-70: the timeout is taken although a message is in the channel. -/
  | leaveLate (s : State ε) (h : s.main = .listening) (v : Published) (vs : List Published) (hv : s.values = vs ++ [v]) :
      Step lo hi reports s .leave { s with main := .left, values := vs }
  /-- whois.go:66: `values, err := …`. -/
  | assign (s : State ε) (h : s.main = .left) : Step lo hi reports s .assign { s with main := .assigned, err := none }
  /-- whois.go:67-69. -/
  | checkErr (s : State ε) (e : ε) (h : s.main = .assigned) (he : s.err = some e) (hr : reports = true) :
      Step lo hi reports s .check { s with main := .returned (.error e) }
  /-- whois.go:67. -/
  | check (s : State ε) (h : s.main = .assigned) (he : s.err = none ∨ reports = false) :
      Step lo hi reports s .check { s with main := .receiving }
  /-- whois.go:70 with 64: the channel is not buffered. -/
  | receive (s : State ε) (x : Option ε) (h : s.main = .receiving) (hx : s.sender = .offering x) :
      Step lo hi reports s .receive { s with main := .received, sender := .done, err := x }
  /-- whois.go:71-73. -/
  | finishErr (s : State ε) (e : ε) (h : s.main = .received) (he : s.err = some e) (hr : reports = true) :
      Step lo hi reports s .finish { s with main := .returned (.error e) }
  /-- whois.go:71, 74-115 (whatnetwork.go:51-60, whoisrouter.go:45-55). -/
  | finish (s : State ε) (h : s.main = .received) (he : s.err = none ∨ reports = false) :
      Step lo hi reports s .finish { s with main := .returned (.ok s.values) }

/-- The steps of an execution, oldest first.  whois.go:61-73. -/
inductive Exec {ε : Type} (lo hi : Int) (reports : Bool) (s : State ε) : List (Label ε) → State ε → Prop where
  | nil : Exec lo hi reports s [] s
  | snoc {tr l u t} (h : Exec lo hi reports s tr u) (st : Step lo hi reports u l t) : Exec lo hi reports s (tr ++ [l]) t

end DCall

/-- whois.go:76-114: what `WhoIs` returns. -/
def whoIsResult (r : Except ε (List Published)) : Except ε (List FoundDevice) :=
  r.map fun vs => whoIsLoop vs [] []

end Bac
