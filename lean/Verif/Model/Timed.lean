import Verif.Model.Utsm
/-!
# utsm/utsm.go, utsm/subscriber.go with the clock

`Model/Utsm.lean` lets a subscription time out at any moment.  Here the clock, `lastReceived`,
the two contexts and their deadlines are added, so that it can be said when a subscription ends.
One tick is one unit of `time.Now`, which is monotonic; a context is done from its deadline on.
-/

namespace Bac.Timed
open Bac.Utsm (State Msg Pub SubPc)

/-- The times of one call of `Subscribe`.  utsm/subscriber.go:9-19, 53-72. -/
structure Clock where
  /-- has the structure been made (utsm.go:76-82)? -/
  created : Bool := false
  /-- `lastReceived`, subscriber.go:15 -/
  last : Nat := 0
  /-- has the outer context been made (subscriber.go:58)? -/
  ctx : Bool := false
  /-- its deadline -/
  over : Nat := 0
  /-- result of `getTimeout` (subscriber.go:44-50); it is negative when the time is over -/
  rel : Int := 0
  /-- has the inner context been made (subscriber.go:62)? -/
  armed : Bool := false
  /-- its deadline -/
  deadline : Int := 0
  /-- ghost: when the structure was made -/
  made : Nat := 0
  /-- ghost: when the subscriber was entered in the list -/
  began : Nat := 0
  /-- ghost: `lastReceived` as set for the message last sent to it -/
  stamp : Nat := 0
  /-- ghost: when that message was put into the channel -/
  sent : Nat := 0
  /-- ghost: `stamp` of the message last taken from the channel; `made` if there was none -/
  taken : Nat := 0
  /-- ghost: when the select chose `Done` -/
  ended : Nat := 0
  deriving DecidableEq, Repr

/-- The state of Model/Utsm.lean with the clock: utsm/utsm.go:17-22, utsm/subscriber.go:9-19. -/
structure TState where
  u : State
  now : Nat
  clock : Nat → Clock

/-- Nothing has happened; the clock shows 0.  utsm/utsm.go:26-37. -/
def start (range : Nat → Int × Int) : TState := ⟨Utsm.start range, 0, fun _ => {}⟩

/-- Some subscriber can go on by itself, or a publisher can put its message into a channel.
utsm/utsm.go:61-73, utsm/subscriber.go:53-72. -/
def Busy (s : TState) : Prop :=
  (∃ k, (s.u.sub k).pc = .top ∧ (s.clock k).ctx = false) ∨
  (∃ k, (s.u.sub k).pc = .top ∧ (s.clock k).ctx = true ∧ (s.u.sub k).locked = false) ∨
  (∃ k, (s.u.sub k).pc = .select ∧ (s.clock k).armed = false) ∨
  (∃ k, (s.u.sub k).pc = .select ∧ (s.clock k).armed = true ∧
    ((s.u.sub k).queue ≠ [] ∨ (s.clock k).deadline ≤ s.now)) ∨
  (∃ p m k rest, s.u.pub p = .inSub m k rest ∧ (s.u.sub k).queue = [])

/-- One step.  `lrt` is `m.subTimeout` and `overall` `m.subOverallTimeout` (utsm.go:40-57; 2 s and 10 s for a
client, device.go:105-107).  With `prompt` time passes only when nobody is `Busy`. -/
inductive Step (lrt overall : Nat) (prompt : Bool) : TState → TState → Prop
  | tick (s : TState) (h : prompt = true → ¬ Busy s) : Step lrt overall prompt s { s with now := s.now + 1 }
  /-- utsm.go:62-65 -/
  | pubStart (s p m) (h : s.u.pub p = .idle) (hl : s.u.lock = none) :
      Step lrt overall prompt s { s with u := { s.u with
        lock := some p
        pub := Function.update s.u.pub p (.loop m s.u.subs)
        published := s.u.published ++ [m] } }
  /-- utsm.go:66, not in range -/
  | pubSkip (s p m k rest) (h : s.u.pub p = .loop m (k :: rest))
      (hr : ¬ (m.id ≥ (s.u.sub k).lo ∧ m.id ≤ (s.u.sub k).hi)) :
      Step lrt overall prompt s { s with u := { s.u with pub := Function.update s.u.pub p (.loop m rest) } }
  /-- utsm.go:66-68 -/
  | pubLock (s p m k rest) (h : s.u.pub p = .loop m (k :: rest))
      (hr : m.id ≥ (s.u.sub k).lo ∧ m.id ≤ (s.u.sub k).hi) (hf : (s.u.sub k).locked = false) :
      Step lrt overall prompt s { s with
        u := { s.u with
          pub := Function.update s.u.pub p (.inSub m k rest)
          sub := Function.update s.u.sub k { s.u.sub k with locked := true } }
        clock := Function.update s.clock k { s.clock k with last := s.now } }
  /-- utsm.go:69-70 -/
  | pubSend (s p m k rest) (h : s.u.pub p = .inSub m k rest) (hq : (s.u.sub k).queue = []) :
      Step lrt overall prompt s { s with
        u := { s.u with
          pub := Function.update s.u.pub p (.loop m rest)
          sub := Function.update s.u.sub k { s.u.sub k with queue := [m.data], locked := false } }
        clock := Function.update s.clock k { s.clock k with stamp := (s.clock k).last, sent := s.now } }
  /-- utsm.go:73 and the deferred unlocking -/
  | pubEnd (s p m) (h : s.u.pub p = .loop m []) :
      Step lrt overall prompt s { s with u := { s.u with lock := none, pub := Function.update s.u.pub p .idle } }
  /-- utsm.go:76-82: `lastReceived` is set before the manager's mutex is asked for -/
  | create (s k) (h : (s.u.sub k).pc = .fresh) (hc : (s.clock k).created = false) :
      Step lrt overall prompt s { s with
        clock := Function.update s.clock k
          { s.clock k with created := true, last := s.now, made := s.now, taken := s.now } }
  /-- utsm.go:83-97 -/
  | subscribe (s k) (h : (s.u.sub k).pc = .fresh) (hl : s.u.lock = none) (hc : (s.clock k).created = true) :
      Step lrt overall prompt s { s with
        u := { s.u with
          subs := s.u.subs ++ [k]
          sub := Function.update s.u.sub k { s.u.sub k with pc := .top, since := s.u.published.length } }
        clock := Function.update s.clock k { s.clock k with began := s.now } }
  /-- subscriber.go:58 -/
  | ctx (s k) (h : (s.u.sub k).pc = .top) (hc : (s.clock k).ctx = false) :
      Step lrt overall prompt s { s with
        clock := Function.update s.clock k { s.clock k with ctx := true, over := s.now + overall } }
  /-- subscriber.go:44-50, called in line 62 -/
  | getTimeout (s k) (h : (s.u.sub k).pc = .top) (hf : (s.u.sub k).locked = false) (hc : (s.clock k).ctx = true) :
      Step lrt overall prompt s { s with
        u := { s.u with sub := Function.update s.u.sub k { s.u.sub k with pc := .select } }
        clock := Function.update s.clock k
          { s.clock k with rel := ((s.clock k).last + lrt : Int) - s.now, armed := false } }
  /-- subscriber.go:62: the deadline is that of the outer context if this is earlier -/
  | arm (s k) (h : (s.u.sub k).pc = .select) (ha : (s.clock k).armed = false) :
      Step lrt overall prompt s { s with
        clock := Function.update s.clock k
          { s.clock k with armed := true, deadline := min ((s.clock k).over : Int) (s.now + (s.clock k).rel) } }
  /-- subscriber.go:68-69 -/
  | receive (s k b q) (h : (s.u.sub k).pc = .select) (ha : (s.clock k).armed = true)
      (hq : (s.u.sub k).queue = b :: q) :
      Step lrt overall prompt s { s with
        u := { s.u with
          sub := Function.update s.u.sub k
            { s.u.sub k with pc := .top, queue := q, store := (s.u.sub k).store ++ [b] } }
        clock := Function.update s.clock k { s.clock k with taken := (s.clock k).stamp } }
  /-- subscriber.go:66-67; if there is also a message, the select chooses either -/
  | timeout (s k) (h : (s.u.sub k).pc = .select) (ha : (s.clock k).armed = true)
      (hd : (s.clock k).deadline ≤ s.now) :
      Step lrt overall prompt s { s with
        u := { s.u with sub := Function.update s.u.sub k { s.u.sub k with pc := .leaving } }
        clock := Function.update s.clock k { s.clock k with ended := s.now } }
  /-- utsm.go:101-120 -/
  | unsubscribe (s k) (h : (s.u.sub k).pc = .leaving) (hl : s.u.lock = none) :
      Step lrt overall prompt s { s with u := { s.u with
        subs := Utsm.remove k s.u.subs
        sub := Function.update s.u.sub k { s.u.sub k with pc := .gone, until_ := s.u.published.length } } }

/-- Reachable states.  utsm/utsm.go:26-37, 61-73. -/
inductive Reach (lrt overall : Nat) (prompt : Bool) (range : Nat → Int × Int) : TState → Prop
  | start : Reach lrt overall prompt range (start range)
  | step {s s'} : Reach lrt overall prompt range s → Step lrt overall prompt s s' → Reach lrt overall prompt range s'

end Bac.Timed
