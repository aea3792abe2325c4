import Mathlib.Logic.Function.Basic
/-!
# utsm/utsm.go, utsm/subscriber.go: publishers and subscribers as a transition system

Any number of goroutines call `Publish` (device.go:153, 157, 194) and any number call
`Subscribe` (whois.go:66, whatnetwork.go:42, whoisrouter.go:37).  One step is one atomic
action of one goroutine.  Time-outs may happen at any moment.  Options of `Subscribe` are
not modelled (no caller passes any).
-/

namespace Bac.Utsm

/-- Arguments of `Publish`; the data is only passed on.  utsm/utsm.go:61. -/
structure Msg where
  id : Int
  data : Nat
  deriving DecidableEq, Repr

/-- Where a goroutine calling `Publish` stands (utsm/utsm.go:61-73). -/
inductive Pub where
  /-- not in `Publish` -/
  | idle
  /-- line 65: holds the manager's mutex; these subscribers remain -/
  | loop (m : Msg) (rest : List Nat)
  /-- lines 68-69: holds also the mutex of subscriber `k`, about to send -/
  | inSub (m : Msg) (k : Nat) (rest : List Nat)
  deriving DecidableEq, Repr

/-- Where a goroutine calling `Subscribe` stands (utsm/subscriber.go:53-72). -/
inductive SubPc where
  /-- before line 55 -/
  | fresh
  /-- line 62: about to call `getTimeout` -/
  | top
  /-- line 65: in the `select` -/
  | select
  /-- line 67: returning; the deferred `removeSubscriber` is to be run -/
  | leaving
  /-- returned -/
  | gone
  deriving DecidableEq, Repr

/-- utsm/subscriber.go:9-19 with the goroutine that uses it.  The two time-outs and
`lastReceived` are left out: a time-out may happen at any moment. -/
structure Sub where
  lo : Int
  hi : Int
  pc : SubPc
  /-- the channel `data`, capacity 1 (utsm/utsm.go:80) -/
  queue : List Nat
  /-- is the subscriber's mutex held (by a publisher)? -/
  locked : Bool
  /-- `store` of line 54 -/
  store : List Nat
  /-- ghost: number of messages published before it subscribed -/
  since : Nat
  /-- ghost: number of messages published before it was removed -/
  until_ : Nat
  deriving DecidableEq, Repr

/-- utsm/utsm.go:17-22 `Manager` with the goroutines that use it. -/
structure State where
  /-- `m.subs`, by number -/
  subs : List Nat
  /-- holder of the manager's mutex, if a publisher; the critical sections of subscribers
  (lines 83-91, 101-120) contain nothing that can block and are one step -/
  lock : Option Nat
  pub : Nat → Pub
  sub : Nat → Sub
  /-- ghost: all messages whose publication has begun -/
  published : List Msg

/-- utsm/utsm.go:26-36 `NewManager`; subscriber `k` is going to ask for `range k`. -/
def start (range : Nat → Int × Int) : State where
  subs := []
  lock := none
  pub := fun _ => .idle
  sub := fun k => ⟨(range k).1, (range k).2, .fresh, [], false, [], 0, 0⟩
  published := []

/-- utsm/utsm.go:104-119: the first occurrence is removed, the later ones move up. -/
def remove (k : Nat) : List Nat → List Nat
  | [] => []
  | x :: l => if x = k then l else x :: remove k l

/-- One step.  utsm/utsm.go:61-112, utsm/subscriber.go:53-72; the lines are given with the steps. -/
inductive Step : State → State → Prop
  /-- utsm.go:62-65 -/
  | pubStart (s p m) (h : s.pub p = .idle) (hl : s.lock = none) :
      Step s { s with
        lock := some p
        pub := Function.update s.pub p (.loop m s.subs)
        published := s.published ++ [m] }
  /-- utsm.go:66, not in range -/
  | pubSkip (s p m k rest) (h : s.pub p = .loop m (k :: rest))
      (hr : ¬ (m.id ≥ (s.sub k).lo ∧ m.id ≤ (s.sub k).hi)) :
      Step s { s with pub := Function.update s.pub p (.loop m rest) }
  /-- utsm.go:66-67 -/
  | pubLock (s p m k rest) (h : s.pub p = .loop m (k :: rest))
      (hr : m.id ≥ (s.sub k).lo ∧ m.id ≤ (s.sub k).hi) (hf : (s.sub k).locked = false) :
      Step s { s with
        pub := Function.update s.pub p (.inSub m k rest)
        sub := Function.update s.sub k { s.sub k with locked := true } }
  /-- utsm.go:69-70; the channel has room for one message -/
  | pubSend (s p m k rest) (h : s.pub p = .inSub m k rest) (hq : (s.sub k).queue = []) :
      Step s { s with
        pub := Function.update s.pub p (.loop m rest)
        sub := Function.update s.sub k { s.sub k with queue := [m.data], locked := false } }
  /-- utsm.go:73 and the deferred unlocking -/
  | pubEnd (s p m) (h : s.pub p = .loop m []) :
      Step s { s with lock := none, pub := Function.update s.pub p .idle }
  /-- utsm.go:76-97 -/
  | subscribe (s k) (h : (s.sub k).pc = .fresh) (hl : s.lock = none) :
      Step s { s with
        subs := s.subs ++ [k]
        sub := Function.update s.sub k { s.sub k with pc := .top, since := s.published.length } }
  /-- subscriber.go:62 (44-50) -/
  | getTimeout (s k) (h : (s.sub k).pc = .top) (hf : (s.sub k).locked = false) :
      Step s { s with sub := Function.update s.sub k { s.sub k with pc := .select } }
  /-- subscriber.go:68-69 -/
  | receive (s k b q) (h : (s.sub k).pc = .select) (hq : (s.sub k).queue = b :: q) :
      Step s { s with
        sub := Function.update s.sub k
          { s.sub k with pc := .top, queue := q, store := (s.sub k).store ++ [b] } }
  /-- subscriber.go:66-67 -/
  | timeout (s k) (h : (s.sub k).pc = .select) :
      Step s { s with sub := Function.update s.sub k { s.sub k with pc := .leaving } }
  /-- utsm.go:101-120 -/
  | unsubscribe (s k) (h : (s.sub k).pc = .leaving) (hl : s.lock = none) :
      Step s { s with
        subs := remove k s.subs
        sub := Function.update s.sub k
          { s.sub k with pc := .gone, until_ := s.published.length } }

/-- Reachable states, for given ranges.  utsm/utsm.go:26-37. -/
inductive Reach (range : Nat → Int × Int) : State → Prop
  | start : Reach range (start range)
  | step {s s'} : Reach range s → Step s s' → Reach range s'

end Bac.Utsm
