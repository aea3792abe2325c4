import Verif.Model.Discovery
/-!
# cmd/cmd/discover.go: the command discover

A scanning main goroutine, `concurrency` workers that read the objects of the devices
found, and a goroutine that merges the results.  They are connected by two channels with
`concurrency` places each.  One step of the transition system is one operation of one
goroutine; the calls `WhoIs` and `Objects` return anything.

Simplifications: logging and the counters for the last message are left out.  `results`
is read by the main goroutine and written by the merging one without synchronisation;
here the read is atomic, at any moment.  A channel with places handed over directly to a
waiting receiver is the same as sending and then receiving; with no places (concurrency
0) there are no workers, hence no receiver of `scan` and no sender to `merge`, so nothing
is ever sent.
-/

namespace Bac.Discover

/-- What is observed: the return of `WhoIs` (cmd/cmd/discover.go:129; `none` is an error) and of
`Objects` (cmd/cmd/discover.go:78). -/
inductive Event (δ ρ : Type) where
  | whoIs (r : Option (List δ))
  | objects (d : δ) (r : Option ρ)

/-- The main goroutine (cmd/cmd/discover.go:123-143). -/
inductive Main (δ ρ : Type) where
  /-- cmd/cmd/discover.go:123: the head of the loop, `k` calls are left -/
  | loop (k : Nat)
  /-- cmd/cmd/discover.go:134: sending what was found -/
  | push (k : Nat) (l : List δ)
  /-- cmd/cmd/discover.go:137: waiting for the workers -/
  | wait
  /-- cmd/cmd/discover.go:138: about to close `merge` -/
  | shut
  /-- cmd/cmd/discover.go:140: about to read `results` -/
  | save
  /-- cmd/cmd/discover.go:140: the results given to `save` -/
  | done (saved : List ρ)
  /-- the process crashed -/
  | crashed

/-- A worker (cmd/cmd/discover.go:74-88). -/
inductive Worker (δ ρ : Type) where
  /-- cmd/cmd/discover.go:75: receiving from `scan` -/
  | recv
  /-- cmd/cmd/discover.go:76: the rest of the loop over the devices -/
  | each (l : List δ)
  /-- cmd/cmd/discover.go:84: sending a device -/
  | push (r : ρ) (l : List δ)
  /-- cmd/cmd/discover.go:87 -/
  | exited

/-- The goroutine that combines the results (cmd/cmd/discover.go:97-111). -/
inductive Merger (ρ : Type) where
  /-- cmd/cmd/discover.go:98: receiving from `merge` -/
  | recv
  /-- cmd/cmd/discover.go:99: a device was received -/
  | got (r : ρ)
  | exited

/-- All variables: the channels by their contents and whether they are closed, the
counter of the wait group, the map `repeats` by its keys.  cmd/cmd/discover.go:62-143. -/
structure State (δ ρ : Type) where
  n : Nat
  main : Main δ ρ
  scanQ : List (List δ) := []
  scanClosed : Bool := false
  workers : List (Worker δ ρ)
  wg : Nat
  mergeQ : List ρ := []
  mergeClosed : Bool := false
  merger : Merger ρ := .recv
  results : List ρ := []
  repeats : List UInt32 := []

/-- cmd/cmd/discover.go:67-111: the goroutines started, for `n` workers and `k` calls of `WhoIs`.
(A negative number of workers crashes in `wg.Add`.) -/
def start (δ ρ : Type) (n k : Nat) : State δ ρ :=
  { n, main := .loop k, workers := List.replicate n .recv, wg := n }

variable {δ ρ : Type}

/-- One operation of one goroutine, with what is observed of it; `key` is the instance
number of a device.  cmd/cmd/discover.go:62-143. -/
inductive Step (key : ρ → UInt32) : State δ ρ → List (Event δ ρ) → State δ ρ → Prop
  /-- cmd/cmd/discover.go:129-133 -/
  | whoIsErr (s : State δ ρ) (k : Nat) (h : s.main = .loop (k + 1)) :
      Step key s [.whoIs none] { s with main := .loop k }
  /-- cmd/cmd/discover.go:129 -/
  | whoIsOk (s : State δ ρ) (k : Nat) (l : List δ) (h : s.main = .loop (k + 1)) :
      Step key s [.whoIs (some l)] { s with main := .push k l }
  /-- cmd/cmd/discover.go:134 -/
  | send (s : State δ ρ) (k : Nat) (l : List δ) (h : s.main = .push k l) (hq : s.scanQ.length < s.n) :
      Step key s [] { s with main := .loop k, scanQ := s.scanQ ++ [l] }
  /-- cmd/cmd/discover.go:136 -/
  | closeScan (s : State δ ρ) (h : s.main = .loop 0) :
      Step key s [] { s with main := .wait, scanClosed := true }
  /-- cmd/cmd/discover.go:137 -/
  | waited (s : State δ ρ) (h : s.main = .wait) (hw : s.wg = 0) :
      Step key s [] { s with main := .shut }
  /-- cmd/cmd/discover.go:138 -/
  | closeMerge (s : State δ ρ) (h : s.main = .shut) :
      Step key s [] { s with main := .save, mergeClosed := true }
  /-- cmd/cmd/discover.go:140 -/
  | snapshot (s : State δ ρ) (h : s.main = .save) :
      Step key s [] { s with main := .done s.results }
  /-- cmd/cmd/discover.go:75 -/
  | take (s : State δ ρ) (i : Nat) (l : List δ) (q : List (List δ)) (h : s.workers[i]? = some .recv)
      (hq : s.scanQ = l :: q) :
      Step key s [] { s with scanQ := q, workers := s.workers.set i (.each l) }
  /-- cmd/cmd/discover.go:75, 87: the channel is closed and empty -/
  | leave (s : State δ ρ) (i : Nat) (h : s.workers[i]? = some .recv) (hq : s.scanQ = [])
      (hc : s.scanClosed = true) (hw : 0 < s.wg) :
      Step key s [] { s with workers := s.workers.set i .exited, wg := s.wg - 1 }
  /-- cmd/cmd/discover.go:87: the counter of the wait group would become negative -/
  | leaveCrash (s : State δ ρ) (i : Nat) (h : s.workers[i]? = some .recv) (hq : s.scanQ = [])
      (hc : s.scanClosed = true) (hw : s.wg = 0) :
      Step key s [] { s with main := .crashed }
  /-- cmd/cmd/discover.go:78-83 -/
  | objErr (s : State δ ρ) (i : Nat) (d : δ) (l : List δ) (h : s.workers[i]? = some (.each (d :: l))) :
      Step key s [.objects d none] { s with workers := s.workers.set i (.each l) }
  /-- cmd/cmd/discover.go:78 -/
  | objOk (s : State δ ρ) (i : Nat) (d : δ) (l : List δ) (r : ρ) (h : s.workers[i]? = some (.each (d :: l))) :
      Step key s [.objects d (some r)] { s with workers := s.workers.set i (.push r l) }
  /-- cmd/cmd/discover.go:84 -/
  | emit (s : State δ ρ) (i : Nat) (r : ρ) (l : List δ) (h : s.workers[i]? = some (.push r l))
      (hc : s.mergeClosed = false) (hq : s.mergeQ.length < s.n) :
      Step key s [] { s with mergeQ := s.mergeQ ++ [r], workers := s.workers.set i (.each l) }
  /-- cmd/cmd/discover.go:84: sending on a closed channel -/
  | emitCrash (s : State δ ρ) (i : Nat) (r : ρ) (l : List δ) (h : s.workers[i]? = some (.push r l))
      (hc : s.mergeClosed = true) :
      Step key s [] { s with main := .crashed }
  /-- cmd/cmd/discover.go:76: the end of the loop over the devices -/
  | next (s : State δ ρ) (i : Nat) (h : s.workers[i]? = some (.each [])) :
      Step key s [] { s with workers := s.workers.set i .recv }
  /-- cmd/cmd/discover.go:98 -/
  | receive (s : State δ ρ) (r : ρ) (q : List ρ) (h : s.merger = .recv) (hq : s.mergeQ = r :: q) :
      Step key s [] { s with merger := .got r, mergeQ := q }
  /-- cmd/cmd/discover.go:99-102 -/
  | repeated (s : State δ ρ) (r : ρ) (h : s.merger = .got r) (hk : key r ∈ s.repeats) :
      Step key s [] { s with merger := .recv }
  /-- cmd/cmd/discover.go:103-109 -/
  | merge (s : State δ ρ) (r : ρ) (h : s.merger = .got r) (hk : key r ∉ s.repeats) :
      Step key s [] { s with merger := .recv, repeats := key r :: s.repeats, results := s.results ++ [r] }
  /-- cmd/cmd/discover.go:98: the channel is closed and empty -/
  | mergerLeave (s : State δ ρ) (h : s.merger = .recv) (hq : s.mergeQ = []) (hc : s.mergeClosed = true) :
      Step key s [] { s with merger := .exited }

/-- An execution and what is observed of it, in order.  cmd/cmd/discover.go:62-143. -/
inductive Exec (key : ρ → UInt32) : State δ ρ → List (Event δ ρ) → State δ ρ → Prop
  | refl (s : State δ ρ) : Exec key s [] s
  | tail (s m t : State δ ρ) (tr e : List (Event δ ρ)) (h : Exec key s tr m) (hs : Step key m e t) :
      Exec key s (tr ++ e) t

/-- cmd/cmd/discover.go:123-128: the options of the calls of `WhoIs`, in order; the other fields
are never set. -/
def requests (scanSize : UInt32) : Outcome (List WhoIsOpts) :=
  if scanSize = 0 then .panic .divideByZero
  else .ok ((List.range (4194303 / scanSize.toNat)).map fun i =>
    { low := (i * scanSize.toNat : Nat), high := (i * scanSize.toNat : Nat) })

end Bac.Discover
