import Verif.Model.System
/-!
# The request calls with the clock

The system of `Model/System.lean` with a clock, so that it can be said how long a request call takes.  A call now begins
before it has a slot of the transaction manager; the context given to `tsm.ID` and the one made by `tsm.Receive` have
deadlines and are done from their deadline on.
-/

namespace Bac.TimedCalls
open Bac.Sys (State Move Config Call Run)

/-- The context of `tsm.ID`: readprop.go:14, writeprop.go:12, writemulti.go:13 one second, readmulti.go:23 ten.
In milliseconds. -/
def idTimeout : Call → Nat
  | .readMulti .. => 10000
  | _ => 1000

/-- The time-out of `tsm.Receive`: readprop.go:49, writeprop.go:44, readmulti.go:76, writemulti.go:61. In
milliseconds. -/
def recvTimeout : Nat := 5000

/-- The times of one goroutine making request calls.  readprop.go:14, tsm/transactions.go:90. -/
structure Clock where
  /-- when the call under way was begun, and which it is -/
  asked : Option (Nat × Call) := none
  /-- the deadline of the context in `tsm.Receive` -/
  deadline : Nat := 0

/-- The state of Model/System.lean with the clock (device.go:37-43). -/
structure TState where
  s : State
  now : Nat
  clock : Nat → Clock

/-- device.go:102-113: the client is made, the clock shows 0. -/
def start (cfg : Config) (n m : Nat) (range : Nat → Int × Int) : TState := ⟨Sys.start cfg n m range, 0, fun _ => {}⟩

/-- What time allows caller `k`, whose place in the transaction manager changes from `a` to `b` and whose call from `r`
to `r'`.  tsm/transactions.go:81-131. -/
def Allows (now : Nat) (c : Clock) (a b : Option Tsm.Caller) (r r' : Run) : Prop :=
  match a, b with
  -- tsm/transactions.go:107: a slot is taken by a call that was begun
  | some .idle, some .slot => c.asked.isSome = true
  -- lines 111-113: the context is done
  | some .slot, some .giveBack => ∀ x ∈ c.asked, x.1 + idTimeout x.2 ≤ now
  -- `ID` returns to the call that was begun
  | some (.chan ..), some (.opened ..) => ∀ x ∈ c.asked, r'.call = x.2
  -- lines 97-98: the context is done
  | some (.wait ..), some (.opened ..) => r'.got = r.got ++ [⟨⟨none, .timeout⟩, none⟩] → c.deadline ≤ now
  | _, _ => True

/-- The clock of the caller afterwards: the call is over when the caller is idle again; `Receive` sets its deadline
(tsm/transactions.go:90) before it waits. -/
def Clock.next (now : Nat) (c : Clock) (a b : Option Tsm.Caller) : Clock :=
  match a, b with
  | some .idle, some .idle => c
  | some _, some .idle => { c with asked := none }
  | some (.look ..), some (.wait ..) => { c with deadline := now + recvTimeout }
  | _, _ => c

/-- Does time allow the move to `s'`?.  tsm/transactions.go:81-131. -/
def Allowed (t : TState) (s' : State) : Prop :=
  ∀ k, Allows t.now (t.clock k) t.s.tsm.callers[k]? s'.tsm.callers[k]? (t.s.run k) (s'.run k)

/-- Some goroutine making a call can go on, or give up waiting for a slot.  tsm/transactions.go:81-131. -/
def Busy (cfg : Config) (m : Nat) (t : TState) : Prop :=
  (∃ s' k, Move cfg m t.s s' ∧ Allowed t s' ∧
    (s'.tsm.callers[k]? ≠ t.s.tsm.callers[k]? ∨ (s'.run k).phase ≠ (t.s.run k).phase)) ∨
  ∃ k x, t.s.tsm.callers[k]? = some .idle ∧ (t.clock k).asked = some x ∧ x.1 + idTimeout x.2 ≤ t.now

/-- One step.  With `prompt` time passes only when nobody is `Busy`.  tsm/transactions.go:81-131. -/
inductive Step (cfg : Config) (m : Nat) (prompt : Bool) : TState → TState → Prop
  | tick (t : TState) (h : prompt = true → ¬ Busy cfg m t) : Step cfg m prompt t { t with now := t.now + 1 }
  /-- a goroutine begins a call; its context is made -/
  | ask (t k call) (h : t.s.tsm.callers[k]? = some .idle) (ha : (t.clock k).asked = none) :
      Step cfg m prompt t { t with
        clock := Function.update t.clock k { t.clock k with asked := some (t.now, call) } }
  /-- tsm/transactions.go:115-116: no slot in time; the call returns an error -/
  | refuse (t k x) (h : t.s.tsm.callers[k]? = some .idle) (ha : (t.clock k).asked = some x)
      (hd : x.1 + idTimeout x.2 ≤ t.now) :
      Step cfg m prompt t { t with clock := Function.update t.clock k { t.clock k with asked := none } }
  /-- a step of the system that time allows -/
  | move (t s') (mv : Move cfg m t.s s') (ha : Allowed t s') :
      Step cfg m prompt t ⟨s', t.now, fun k => (t.clock k).next t.now t.s.tsm.callers[k]? s'.tsm.callers[k]?⟩

/-- Reachable states.  tsm/transactions.go:39-64. -/
inductive Reach (cfg : Config) (n m : Nat) (range : Nat → Int × Int) (prompt : Bool) : TState → Prop
  | start : Reach cfg n m range prompt (start cfg n m range)
  | step {t t'} : Reach cfg n m range prompt t → Step cfg m prompt t t' → Reach cfg n m range prompt t'

end Bac.TimedCalls
