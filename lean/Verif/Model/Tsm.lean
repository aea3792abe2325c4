import Mathlib.Logic.Function.Basic
/-!
# tsm/transactions.go: the transaction manager as a transition system

Any number of callers (goroutines in ReadProperty, WriteProperty, ReadMultiProperty,
WriteMultiProperty) and any number of goroutines calling `Send` (device.go:206-224, one
per received frame) run concurrently.  One step is one atomic action of one goroutine:
a channel operation, a map access under the mutex, a field access.  A critical section
without blocking operations (lines 68-70, 82-84, 125-128) is one step, possible while
the mutex is free; `Put`, which sends on channels while holding the mutex, is several
steps.  Look-ups of unknown ids in `Send` and `Receive` (lines 72, 86) return an error and
change nothing; they are not listed as steps.  `sync.Pool` may return any object put into it, or a new one.  A time-out or the
end of a context may happen at any moment.
-/

namespace Bac.Tsm

/-- Where a caller stands.  `i` is its invoke id, `o` the `*state` object it got from the
pool, `c` the channel it made (ghost copies of what it stored, used to state properties);
`o'` and `c'` are what the code looked up.  tsm/transactions.go:81-146. -/
inductive Caller where
  /-- not in a transaction -/
  | idle
  /-- `ID`, line 107: has a slot, waits for an id -/
  | slot
  /-- `ID`, line 112: the context is done, about to give the slot back -/
  | giveBack
  /-- `ID`, line 110: has an id -/
  | id (i : Nat)
  /-- `ID`, line 120: has an object from the pool -/
  | obj (i o : Nat)
  /-- `ID`, line 123: has made the channel; waits for the mutex (line 125) -/
  | chan (i o c : Nat)
  /-- `ID` has returned the id -/
  | opened (i o c : Nat)
  /-- `Receive`, line 83: has looked up the object `o'` -/
  | look (i o c o' : Nat)
  /-- `Receive`, line 94: waits on the channel `c'` -/
  | wait (i o c c' : Nat)
  /-- `Put`, line 136: holds the mutex, has looked up the object `o'` -/
  | locked (i o c o' : Nat)
  /-- `Put`, line 141 done: the channel is closed -/
  | closed (i o : Nat)
  /-- `Put`, line 142 done: the object is in the pool -/
  | pooled (i o : Nat)
  /-- `Put`, line 143 done: the id is free -/
  | freedId (i o : Nat)
  /-- `Put`, line 144 done: the slot is free -/
  | freedSlot (i o : Nat)
  deriving DecidableEq, Repr

/-- Where a goroutine calling `Send(i, v)` stands.  tsm/transactions.go:67-78. -/
inductive Sender where
  | idle
  /-- line 69: has looked up the object `o` of id `i`; `c` is the channel the object had
  at that moment (ghost) -/
  | looked (i o c v : Nat)
  /-- line 75: has read the channel `c'` and tries to send -/
  | blocked (i c c' v : Nat)
  deriving DecidableEq, Repr

/-- A value handed over: sent for id `sent`, received by the caller whose transaction has
id `received`; `stale` if the object had got another channel between the look-up and the
sending (ghost history).  tsm/transactions.go:75, 95. -/
structure Entry where
  sent : Nat
  value : Nat
  received : Nat
  stale : Bool
  deriving DecidableEq, Repr

/-- State of `TSM` (tsm/transactions.go:19-36) and of the goroutines using it.  Objects
and channels are numbered in order of creation. -/
structure State where
  /-- `free.id`, a queue of capacity 255 -/
  ids : List Nat
  /-- number of tokens in `free.space`, capacity `size` -/
  space : Nat
  /-- `states` -/
  states : Nat → Option Nat
  /-- field `data` of each object -/
  data : Nat → Nat
  /-- the objects in `pool` -/
  pool : List Nat
  /-- which channels are closed -/
  isClosed : Nat → Bool
  /-- ghost: the id for which each channel was made -/
  madeFor : Nat → Nat
  nextObj : Nat
  nextChan : Nat
  /-- is the mutex held (by a caller in `Put`)? -/
  mutex : Bool
  callers : List Caller
  senders : List Sender
  /-- ghost: values handed over -/
  log : List Entry
  /-- ghost: number of nil values received from closed channels -/
  nils : Nat
  /-- a send on a closed channel: the process has crashed -/
  panicked : Bool

/-- tsm/transactions.go:39-64 `New(size)`: ids 1..254, `size` slots; `n` callers and `m`
senders that have not started. -/
def start (size n m : Nat) : State where
  ids := List.range' 1 254
  space := size
  states := fun _ => none
  data := fun _ => 0
  pool := []
  isClosed := fun _ => false
  madeFor := fun _ => 0
  nextObj := 0
  nextChan := 0
  mutex := false
  callers := List.replicate n .idle
  senders := List.replicate m .idle
  log := []
  nils := 0
  panicked := false

/-- One step; `size` is the capacity of `free.space`.  `l₁` and `l₂` are the other
callers or senders.  tsm/transactions.go:66-146; the lines are given with the steps. -/
inductive Step (size : Nat) : State → State → Prop
  /-- line 107 -/
  | takeSlot (s l₁ l₂) (h : s.callers = l₁ ++ .idle :: l₂) (hs : 0 < s.space) :
      Step size s { s with space := s.space - 1, callers := l₁ ++ .slot :: l₂ }
  /-- line 110 -/
  | takeId (s l₁ l₂ i rest) (h : s.callers = l₁ ++ .slot :: l₂) (hi : s.ids = i :: rest) :
      Step size s { s with ids := rest, callers := l₁ ++ .id i :: l₂ }
  /-- line 111: the context is done -/
  | cancel (s l₁ l₂) (h : s.callers = l₁ ++ .slot :: l₂) :
      Step size s { s with callers := l₁ ++ .giveBack :: l₂ }
  /-- line 112; sending blocks while the channel is full -/
  | giveBack (s l₁ l₂) (h : s.callers = l₁ ++ .giveBack :: l₂) (hs : s.space < size) :
      Step size s { s with space := s.space + 1, callers := l₁ ++ .idle :: l₂ }
  /-- line 120: a new object -/
  | newObj (s l₁ l₂ i) (h : s.callers = l₁ ++ .id i :: l₂) :
      Step size s { s with nextObj := s.nextObj + 1, callers := l₁ ++ .obj i s.nextObj :: l₂ }
  /-- line 120: an object from the pool -/
  | poolObj (s l₁ l₂ i o p₁ p₂) (h : s.callers = l₁ ++ .id i :: l₂) (hp : s.pool = p₁ ++ o :: p₂) :
      Step size s { s with pool := p₁ ++ p₂, callers := l₁ ++ .obj i o :: l₂ }
  /-- line 123 (121, 122 have no effect on other goroutines) -/
  | makeChan (s l₁ l₂ i o) (h : s.callers = l₁ ++ .obj i o :: l₂) :
      Step size s { s with
        data := Function.update s.data o s.nextChan
        madeFor := Function.update s.madeFor s.nextChan i
        nextChan := s.nextChan + 1
        callers := l₁ ++ .chan i o s.nextChan :: l₂ }
  /-- lines 125-128 -/
  | openTx (s l₁ l₂ i o c) (h : s.callers = l₁ ++ .chan i o c :: l₂) (hm : s.mutex = false) :
      Step size s { s with
        states := Function.update s.states i (some o), callers := l₁ ++ .opened i o c :: l₂ }
  /-- lines 82-84 -/
  | recvLook (s l₁ l₂ i o c o') (h : s.callers = l₁ ++ .opened i o c :: l₂) (hm : s.mutex = false)
      (hl : s.states i = some o') :
      Step size s { s with callers := l₁ ++ .look i o c o' :: l₂ }
  /-- lines 90-94: the channel is read, the `select` entered -/
  | recvWait (s l₁ l₂ i o c o') (h : s.callers = l₁ ++ .look i o c o' :: l₂) :
      Step size s { s with callers := l₁ ++ .wait i o c (s.data o') :: l₂ }
  /-- lines 97-98 -/
  | recvTimeout (s l₁ l₂ i o c c') (h : s.callers = l₁ ++ .wait i o c c' :: l₂) :
      Step size s { s with callers := l₁ ++ .opened i o c :: l₂ }
  /-- line 95 on a closed channel -/
  | recvNil (s l₁ l₂ i o c c') (h : s.callers = l₁ ++ .wait i o c c' :: l₂)
      (hc : s.isClosed c' = true) :
      Step size s { s with nils := s.nils + 1, callers := l₁ ++ .opened i o c :: l₂ }
  /-- lines 95 and 75 together: sender and receiver meet -/
  | handOver (s l₁ l₂ m₁ m₂ i o c c' j d v) (h : s.callers = l₁ ++ .wait i o c c' :: l₂)
      (hsd : s.senders = m₁ ++ .blocked j d c' v :: m₂) (hc : s.isClosed c' = false) :
      Step size s { s with
        log := ⟨j, v, i, decide (d ≠ c')⟩ :: s.log
        senders := m₁ ++ .idle :: m₂
        callers := l₁ ++ .opened i o c :: l₂ }
  /-- lines 133-136 -/
  | putLock (s l₁ l₂ i o c o') (h : s.callers = l₁ ++ .opened i o c :: l₂) (hm : s.mutex = false)
      (hl : s.states i = some o') :
      Step size s { s with mutex := true, callers := l₁ ++ .locked i o c o' :: l₂ }
  /-- line 138: the id is unknown; the caller goes away -/
  | putFail (s l₁ l₂ i o c) (h : s.callers = l₁ ++ .opened i o c :: l₂) (hm : s.mutex = false)
      (hl : s.states i = none) :
      Step size s { s with callers := l₁ ++ .idle :: l₂ }
  /-- line 141; closing a closed channel would be a crash too -/
  | putClose (s l₁ l₂ i o c o') (h : s.callers = l₁ ++ .locked i o c o' :: l₂) :
      Step size s { s with
        panicked := s.panicked || s.isClosed (s.data o')
        isClosed := Function.update s.isClosed (s.data o') true
        callers := l₁ ++ .closed i o' :: l₂ }
  /-- line 142 -/
  | putPool (s l₁ l₂ i o) (h : s.callers = l₁ ++ .closed i o :: l₂) :
      Step size s { s with pool := o :: s.pool, callers := l₁ ++ .pooled i o :: l₂ }
  /-- line 143; sending blocks while the channel is full -/
  | putId (s l₁ l₂ i o) (h : s.callers = l₁ ++ .pooled i o :: l₂) (hf : s.ids.length < 255) :
      Step size s { s with ids := s.ids ++ [i], callers := l₁ ++ .freedId i o :: l₂ }
  /-- line 144; sending blocks while the channel is full -/
  | putSlot (s l₁ l₂ i o) (h : s.callers = l₁ ++ .freedId i o :: l₂) (hs : s.space < size) :
      Step size s { s with space := s.space + 1, callers := l₁ ++ .freedSlot i o :: l₂ }
  /-- lines 145-146 and the unlocking -/
  | putDelete (s l₁ l₂ i o) (h : s.callers = l₁ ++ .freedSlot i o :: l₂) :
      Step size s { s with
        states := Function.update s.states i none, mutex := false, callers := l₁ ++ .idle :: l₂ }
  /-- lines 68-70; any goroutine may send any value to any id -/
  | sendLook (s m₁ m₂ i o v) (h : s.senders = m₁ ++ .idle :: m₂) (hm : s.mutex = false)
      (hl : s.states i = some o) :
      Step size s { s with senders := m₁ ++ .looked i o (s.data o) v :: m₂ }
  /-- line 75: the field is read -/
  | sendRead (s m₁ m₂ i o c v) (h : s.senders = m₁ ++ .looked i o c v :: m₂) :
      Step size s { s with senders := m₁ ++ .blocked i c (s.data o) v :: m₂ }
  /-- line 75 on a closed channel -/
  | sendPanic (s m₁ m₂ i c c' v) (h : s.senders = m₁ ++ .blocked i c c' v :: m₂)
      (hc : s.isClosed c' = true) :
      Step size s { s with panicked := true }

/-- The states that `n` callers and `m` senders can reach.  tsm/transactions.go:39-64. -/
inductive Reach (size n m : Nat) : State → Prop
  | start : Reach size n m (start size n m)
  | step {s s'} : Reach size n m s → Step size s s' → Reach size n m s'

end Bac.Tsm
