import Verif.Model.Discovery
import Verif.Model.Tsm
import Verif.Model.Utsm
/-!
# The client as a whole: receive loop, handlers, request calls and subscriptions together

Model/Client.lean describes `handleMsg` and the request calls as functions, Model/Tsm.lean
and Model/Utsm.lean the two managers as transition systems.  Here they run together: every
datagram that arrives is handled by a goroutine of its own (device.go:127), whose calls of
`tsm.Send` and `utsm.Publish` are steps of the two managers; every request call is a goroutine
that opens a transaction, sends, receives and releases the transaction.

Not part of this model: the crash of the process (executions are looked at up to a crash,
the crashes themselves are the subject of C38, C49, C81), the sending side of the discovery
calls, and time: a time-out may happen at any moment.
-/

namespace Bac.Sys

/-- What a request call returns besides an error.  device.go:31-34. -/
inductive Res where
  | property (p : PropertyData)
  | objects (l : List Object)
  | unit

/-- device.go:30-33: a request call with its arguments. -/
inductive Call where
  | read (dev : Device) (rp : PropertyData)
  | write (dev : Device) (wp : PropertyData)
  | readMulti (dev : Device) (rp : List Object)
  | writeMulti (dev : Device) (wp : List Object)

/-- What a request call keeps while it is in its loop: where and what to send, what is done with
what is received, the number of attempts, and whether the last error is wrapped
(readmulti.go:66, writemulti.go:52). -/
structure Loop where
  dest : Address
  pack : List UInt8
  step : Recv → Outcome (Step Res)
  tries : Nat
  wrap : Bool

/-- The result of a pass of the loop, with the type of the value forgotten.  Not in the code. -/
def mapStep {α : Type} (f : α → Res) (r : Outcome (Step α)) : Outcome (Step Res) :=
  match r with
  | .ok (.done (.ok a)) => .ok (.done (.ok (f a)))
  | .ok (.done (.error e)) => .ok (.done (.error e))
  | .ok (.retry e) => .ok (.retry e)
  | .panic k => .panic k
  | .diverge => .diverge

/-- From the return of `tsm.ID` to the loop: readprop.go:21-36, writeprop.go:19-35,
readmulti.go:32-57, writemulti.go:20-43. -/
def Call.enter (fuel : Nat) (my : Address) (id : UInt8) : Call → Outcome (Except CallErr Loop)
  | .read dev rp =>
    match (do let e ← Enc.new.npdu (requestNpdu my dev.addr.setLength); e.readProperty id rp) with
    | .ok (e, _) =>
      match e.err with
      | some err => .ok (.error (.encode err))
      | none => .ok (.ok ⟨dev.addr.setLength, e.buf, fun v => mapStep .property (readStep fuel v), retryCount, false⟩)
    | .panic k => .panic k
    | .diverge => .diverge
  | .write dev wp =>
    match (do let e ← Enc.new.npdu (requestNpdu my dev.addr.setLength); e.writeProperty id wp) with
    | .ok (e, _) =>
      match e.err with
      | some err => .ok (.error (.encode err))
      | none => .ok (.ok ⟨dev.addr.setLength, e.buf, fun v => mapStep (fun _ => .unit) (writeStep v), 2, false⟩)
    | .panic k => .panic k
    | .diverge => .diverge
  | .readMulti dev rp =>
    if dev.maxApdu = 0 then .ok (.error .badMaxApdu)
    else
      match (do let e ← Enc.new.npdu (requestNpdu my dev.addr.setLength); e.readMultiple id rp) with
      | .ok (e, _) =>
        match e.err with
        | some err => .ok (.error (.encode err))
        | none =>
          if dev.maxApdu < UInt32.ofNat e.buf.length then .ok (.error .tooLarge)
          else .ok (.ok ⟨dev.addr.setLength, e.buf, fun v => mapStep .objects (readMultiStep fuel v), maxReattempt, true⟩)
      | .panic k => .panic k
      | .diverge => .diverge
  | .writeMulti dev wp =>
    match (do let e ← Enc.new.npdu (requestNpdu my dev.addr); e.writeMultiple id wp) with
    | .ok (e, _) =>
      match e.err with
      | some err => .ok (.error (.encode err))
      | none =>
        if dev.maxApdu < UInt32.ofNat e.buf.length then .ok (.error .tooLarge)
        else .ok (.ok ⟨dev.addr, e.buf, fun v => mapStep (fun _ => .unit) (writeMultiStep v), maxReattempt, true⟩)
    | .panic k => .panic k
    | .diverge => .diverge

/-- Where a request call stands.  readprop.go:16-76, writeprop.go:11-73, readmulti.go:20-67, writemulti.go:12-53. -/
inductive Phase where
  /-- no call yet -/
  | idle
  /-- at the head of the loop with attempts left, about to call `Send`; `last` is the last error -/
  | sending (l : Loop) (last : CallErr)
  /-- `Send` has returned without error; in `tsm.Receive` -/
  | receiving (l : Loop)
  /-- the result is known; the deferred `tsm.Put` is to be run or has been run -/
  | done (r : Except CallErr Res)
  /-- the calling goroutine has panicked -/
  | panicked (k : PanicKind)
  /-- the decoder does not return -/
  | hung

/-- One attempt and, if a value was received, its number in `mail` and whether the
transaction manager handed it over by way of a reused object (Model/Tsm.lean, `Entry`).  readprop.go:42-52 and alike. -/
structure Got where
  attempt : Attempt
  mail : Option (Nat × Bool)

/-- A goroutine making request calls.  `got` and `out` are history.  readprop.go:16-76 and alike. -/
structure Run where
  phase : Phase := .idle
  call : Call := .read {} default
  id : UInt8 := 0
  got : List Got := []
  out : List Sent := []

/-- The error a call returns when there are no attempts left.  readprop.go:76, readmulti.go:66, writemulti.go:52. -/
def Loop.fail (l : Loop) (e : CallErr) : CallErr := if l.wrap then .failed e else e

/-- The loop condition: after `tried` attempts the last of which ended in `e`.
readprop.go:39, readmulti.go:60 and alike. -/
def Loop.next (l : Loop) (tried : Nat) (e : CallErr) : Phase :=
  if tried < l.tries then .sending l e else .done (.error (l.fail e))

/-- The rest of a pass, after `tsm.Receive` has returned `v`.  readprop.go:53-74 and alike. -/
def Loop.after (l : Loop) (tried : Nat) (v : Recv) : Phase :=
  match l.step v with
  | .ok (.done (.ok a)) => .done (.ok a)
  | .ok (.done (.error e)) => .done (.error (l.fail e))
  | .ok (.retry e) => l.next tried e
  | .panic k => .panicked k
  | .diverge => .hung

/-- `tsm.ID` has returned `id`: the call up to the head of its loop.  readprop.go:16-38 and alike. -/
def Run.begin (fuel : Nat) (my : Address) (call : Call) (id : UInt8) : Run where
  phase := match call.enter fuel my id with
    | .ok (.ok l) => l.next 0 (.failed .noId)
    | .ok (.error e) => .done (.error e)
    | .panic k => .panicked k
    | .diverge => .hung
  call := call
  id := id

/-- The calls that `handleMsg` makes for a datagram, in order; whether a transaction is open
does not matter for them (`effects_pending`).  device.go:131-241. -/
def effects (f : Address × List UInt8) : List Effect := (handleMsg f.1 (fun _ => false) f.2).1

/-- The state of the client.  device.go:37-43. -/
structure State where
  /-- the datagrams received so far (device.go:122); datagram `k` is handled by handler `k` -/
  arrived : List (Address × List UInt8)
  /-- what handler `k` has still to do -/
  todo : Nat → List Effect
  tsm : Tsm.State
  utsm : Utsm.State
  /-- the goroutine of caller `k` of the transaction manager -/
  run : Nat → Run
  /-- history: what was handed to `utsm.Publish`: handler, id, value.  The data in
  Model/Utsm.lean are positions in this list. -/
  pubs : List (Nat × Int × Published)
  /-- history: what was handed to `tsm.Send` with success: handler, id, value.  The values in
  Model/Tsm.lean are positions in this list. -/
  mail : List (Nat × UInt8 × Delivered)

/-- What is fixed during an execution: `fuel` bounds the decoders' loops (see Model/Client.lean),
`my` is the data link's address, `size` the number of slots of the transaction manager.  tsm.New of device.go:104. -/
structure Config where
  fuel : Nat
  my : Address
  size : Nat

/-- device.go:100-112: a new client, with `n` callers and `m` handlers that have not started,
and subscribers that are going to ask for the given ranges. -/
def start (cfg : Config) (n m : Nat) (range : Nat → Int × Int) : State where
  arrived := []
  todo := fun _ => []
  tsm := Tsm.start cfg.size n m
  utsm := Utsm.start range
  run := fun _ => {}
  pubs := []
  mail := []

/-- Steps of the transaction manager that are not governed by a request call or a handler:
no transaction gets into or out of the hands of a call, no `Send` begins.  tsm/transactions.go:66-146. -/
def Free (s t : Tsm.State) : Prop :=
  (∀ k i o c : Nat, s.callers[k]? = some (Tsm.Caller.opened i o c) ↔ t.callers[k]? = some (Tsm.Caller.opened i o c)) ∧
  t.senders.countP (fun x => x matches .looked ..) ≤ s.senders.countP (fun x => x matches .looked ..)

/-- One step of the client.  `m` is the number of handlers.
device.go:117-241 with tsm/transactions.go and utsm/utsm.go, see Model/Tsm.lean and Model/Utsm.lean. -/
inductive Move (cfg : Config) (m : Nat) : State → State → Prop
  /-- device.go:122-127: a datagram arrives and a handler is started -/
  | arrive (s f) (h : s.arrived.length < m) :
      Move cfg m s { s with
        arrived := s.arrived ++ [f]
        todo := Function.update s.todo s.arrived.length (effects f) }
  /-- device.go:153, 157, 194: a handler enters `utsm.Publish` (utsm/utsm.go:62-65) -/
  | publish (s k id p rest) (h : s.todo k = .publish id p :: rest) (hk : s.utsm.pub k = .idle)
      (hl : s.utsm.lock = none) :
      Move cfg m s { s with
        todo := Function.update s.todo k rest
        pubs := s.pubs ++ [(k, id, p)]
        utsm := { s.utsm with
          lock := some k
          pub := Function.update s.utsm.pub k (.loop ⟨id, s.pubs.length⟩ s.utsm.subs)
          published := s.utsm.published ++ [⟨id, s.pubs.length⟩] } }
  /-- device.go:206, 212, 218, 224: a handler that is not in `Publish` enters `tsm.Send`, which
  finds the id (tsm/transactions.go:68-70); handler `k` is sender `k` -/
  | deliver (s m₁ m₂ i d rest o) (h : s.todo m₁.length = .deliver i d :: rest)
      (hk : s.utsm.pub m₁.length = .idle) (hs : s.tsm.senders = m₁ ++ .idle :: m₂)
      (hm : s.tsm.mutex = false) (hl : s.tsm.states i.toNat = some o) :
      Move cfg m s { s with
        todo := Function.update s.todo m₁.length rest
        mail := s.mail ++ [(m₁.length, i, d)]
        tsm := { s.tsm with
          senders := m₁ ++ .looked i.toNat o (s.tsm.data o) s.mail.length :: m₂ } }
  /-- the same with an id that is not in use (tsm/transactions.go:72-74) -/
  | unknown (s k i d rest) (h : s.todo k = .deliver i d :: rest) (hk : s.utsm.pub k = .idle)
      (hm : s.tsm.mutex = false) (hl : s.tsm.states i.toNat = none) :
      Move cfg m s { s with todo := Function.update s.todo k rest }
  /-- any other step of the subscription manager -/
  | utsm (s u) (st : Utsm.Step s.utsm u) (h : u.published = s.utsm.published) :
      Move cfg m s { s with utsm := u }
  /-- any step of the transaction manager that needs neither call nor handler -/
  | tsm (s t) (st : Tsm.Step cfg.size s.tsm t) (h : Free s.tsm t) :
      Move cfg m s { s with tsm := t }
  /-- tsm/transactions.go:125-128: `ID` returns, for a call with any arguments -/
  | opened (s l₁ l₂ i o c call) (h : s.tsm.callers = l₁ ++ .chan i o c :: l₂) (hm : s.tsm.mutex = false) :
      Move cfg m s { s with
        run := Function.update s.run l₁.length (Run.begin cfg.fuel cfg.my call (UInt8.ofNat i))
        tsm := { s.tsm with
          states := Function.update s.tsm.states i (some o), callers := l₁ ++ .opened i o c :: l₂ } }
  /-- readprop.go:42, writeprop.go:40, readmulti.go:71, writemulti.go:56: the datagram is sent -/
  | send (s k l last frame) (h : (s.run k).phase = .sending l last)
      (hf : sendFrame l.dest l.pack none = .ok frame) :
      Move cfg m s { s with
        run := Function.update s.run k { s.run k with
          phase := .receiving l, out := (s.run k).out ++ [⟨l.dest, frame⟩] } }
  /-- the same when the data link returns an error -/
  | sendError (s k l last frame e) (h : (s.run k).phase = .sending l last)
      (hf : sendFrame l.dest l.pack none = .ok frame) :
      Move cfg m s { s with
        run := Function.update s.run k { s.run k with
          phase := l.next ((s.run k).got.length + 1) (.send e)
          got := (s.run k).got ++ [⟨⟨some e, .timeout⟩, none⟩]
          out := (s.run k).out ++ [⟨l.dest, frame⟩] } }
  /-- the same when the frame cannot be built (device.go:277-279) -/
  | sendRefused (s k l last e) (h : (s.run k).phase = .sending l last)
      (hf : sendFrame l.dest l.pack none = .error e) :
      Move cfg m s { s with
        run := Function.update s.run k { s.run k with
          phase := l.next ((s.run k).got.length + 1) (.send e)
          got := (s.run k).got ++ [⟨⟨some e, .timeout⟩, none⟩] } }
  /-- tsm/transactions.go:82-84: `Receive` finds the transaction -/
  | recvLook (s l₁ l₂ i o c o' l) (hp : (s.run l₁.length).phase = .receiving l)
      (h : s.tsm.callers = l₁ ++ .opened i o c :: l₂) (hm : s.tsm.mutex = false)
      (hl : s.tsm.states i = some o') :
      Move cfg m s { s with tsm := { s.tsm with callers := l₁ ++ .look i o c o' :: l₂ } }
  /-- tsm/transactions.go:97-98 and the rest of the pass -/
  | recvTimeout (s l₁ l₂ i o c c' l) (hp : (s.run l₁.length).phase = .receiving l)
      (h : s.tsm.callers = l₁ ++ .wait i o c c' :: l₂) :
      Move cfg m s { s with
        tsm := { s.tsm with callers := l₁ ++ .opened i o c :: l₂ }
        run := Function.update s.run l₁.length { s.run l₁.length with
          phase := l.after ((s.run l₁.length).got.length + 1) .timeout
          got := (s.run l₁.length).got ++ [⟨⟨none, .timeout⟩, none⟩] } }
  /-- tsm/transactions.go:95 on a closed channel -/
  | recvNil (s l₁ l₂ i o c c' l) (hp : (s.run l₁.length).phase = .receiving l)
      (h : s.tsm.callers = l₁ ++ .wait i o c c' :: l₂) (hc : s.tsm.isClosed c' = true) :
      Move cfg m s { s with
        tsm := { s.tsm with nils := s.tsm.nils + 1, callers := l₁ ++ .opened i o c :: l₂ }
        run := Function.update s.run l₁.length { s.run l₁.length with
          phase := l.after ((s.run l₁.length).got.length + 1) .other
          got := (s.run l₁.length).got ++ [⟨⟨none, .other⟩, none⟩] } }
  /-- tsm/transactions.go:95 and 75: a handler's value is received; the rest of the pass -/
  | handOver (s l₁ l₂ m₁ m₂ i o c c' j d v l k i' x) (hp : (s.run l₁.length).phase = .receiving l)
      (h : s.tsm.callers = l₁ ++ .wait i o c c' :: l₂)
      (hsd : s.tsm.senders = m₁ ++ .blocked j d c' v :: m₂) (hc : s.tsm.isClosed c' = false)
      (hv : s.mail[v]? = some (k, i', x)) :
      Move cfg m s { s with
        tsm := { s.tsm with
          log := ⟨j, v, i, decide (d ≠ c')⟩ :: s.tsm.log
          senders := m₁ ++ .idle :: m₂
          callers := l₁ ++ .opened i o c :: l₂ }
        run := Function.update s.run l₁.length { s.run l₁.length with
          phase := l.after ((s.run l₁.length).got.length + 1) x.toRecv
          got := (s.run l₁.length).got ++ [⟨⟨none, x.toRecv⟩, some (v, decide (d ≠ c'))⟩] } }
  /-- tsm/transactions.go:133-136: the deferred `Put` of a call that returns -/
  | put (s l₁ l₂ i o c o' r) (hp : (s.run l₁.length).phase = .done r)
      (h : s.tsm.callers = l₁ ++ .opened i o c :: l₂) (hm : s.tsm.mutex = false)
      (hl : s.tsm.states i = some o') :
      Move cfg m s { s with tsm := { s.tsm with mutex := true, callers := l₁ ++ .locked i o c o' :: l₂ } }
  /-- tsm/transactions.go:138: `Put` does not find the transaction; its error is dropped -/
  | putFail (s l₁ l₂ i o c r) (hp : (s.run l₁.length).phase = .done r)
      (h : s.tsm.callers = l₁ ++ .opened i o c :: l₂) (hm : s.tsm.mutex = false)
      (hl : s.tsm.states i = none) :
      Move cfg m s { s with tsm := { s.tsm with callers := l₁ ++ .idle :: l₂ } }

/-- The states reachable with `n` goroutines making calls, `m` datagrams at most, and
subscribers asking for the given ranges.  device.go:102-129. -/
inductive Reach (cfg : Config) (n m : Nat) (range : Nat → Int × Int) : State → Prop
  | start : Reach cfg n m range (start cfg n m range)
  | step {s s'} : Reach cfg n m range s → Move cfg m s s' → Reach cfg n m range s'

/-- What the subscription of subscriber `k` has received (whois.go:66, `values`). -/
def State.values (s : State) (k : Nat) : List Published :=
  (s.utsm.sub k).store.filterMap fun i => s.pubs[i]?.map fun p => p.2.2

/-- whois.go:76-114: what `WhoIs` makes of it. -/
def State.found (s : State) (k : Nat) : List FoundDevice := whoIsLoop (s.values k) [] []

/-- The whole of a request call as a function of what happens in its attempts
(Model/Client.lean), the type of the value forgotten.  readprop.go:13-77 and alike. -/
def Call.sequential (fuel : Nat) (my : Address) (id : UInt8) (script : Nat → Attempt) :
    Call → List Sent × Outcome (Except CallErr Res)
  | .read dev rp => forget .property (clientReadProperty fuel my dev rp (some id) script)
  | .write dev wp => forget (fun _ => .unit) (clientWriteProperty my dev wp (some id) script)
  | .readMulti dev rp => forget .objects (clientReadMulti fuel my dev rp (some id) script)
  | .writeMulti dev wp => forget (fun _ => .unit) (clientWriteMulti my dev wp (some id) script)
where
  /-- The type of the value is forgotten. -/
  forget {α : Type} (f : α → Res) (r : List Sent × Outcome (Except CallErr α)) :
      List Sent × Outcome (Except CallErr Res) :=
    (r.1, match r.2 with
      | .ok (.ok a) => .ok (.ok (f a))
      | .ok (.error e) => .ok (.error e)
      | .panic k => .panic k
      | .diverge => .diverge)

end Bac.Sys
