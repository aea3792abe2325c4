import Verif.Model.Flags
/-!
# helpers/homedir/homedir.go; cmd/cmd/root.go:46-70

Texts are lists of characters.  The environment variables, the programs that are run and the
operating system are inputs.
-/

namespace Bac.HomeDir

/-- `runtime.GOOS`, as far as the code looks at it.  helpers/homedir/homedir.go:41, 89-97. -/
inductive OS where
  | windows
  | darwin
  | plan9
  | other
  deriving DecidableEq, Repr

/-- The return of `cmd.Run()` for a program: it is not there, it fails, or it prints a text.  `exec` reports a program that is
not there by an `*exec.Error` around `exec.ErrNotFound`.  helpers/homedir/homedir.go:98-145. -/
inductive Ran where
  | missing
  | failed
  | prints (out : List Nat)
  deriving DecidableEq, Repr

/-- What `Dir` asks the system for; `[]` is a variable that is not set or is empty.  `HOME` is `home` on Plan 9
(homedir.go:90-94). -/
structure Env where
  os : OS
  home : List Nat := []
  userProfile : List Nat := []
  homeDrive : List Nat := []
  homePath : List Nat := []
  /-- homedir.go:105 -/
  dscl : Ran := .missing
  /-- homedir.go:114 -/
  getent : Ran := .missing
  /-- homedir.go:134 -/
  shell : Ran := .missing
  deriving DecidableEq, Repr

/-- `strings.TrimSpace` (homedir.go:108, 122, 140): the ASCII white space; other white space is left out. -/
def isSpace (c : Nat) : Bool := c == 32 || (9 ≤ c && c ≤ 13)

/-- Half of `strings.TrimSpace` (homedir.go:108, 122, 140). -/
def trimLeft (s : List Nat) : List Nat := s.dropWhile isSpace

/-- `strings.TrimSpace` (homedir.go:108, 122, 140) -/
def trimSpace (s : List Nat) : List Nat := (trimLeft (trimLeft s).reverse).reverse

/-- homedir.go:124 `strings.SplitN(s, ":", n)` for `n > 0`: at most `n` parts, the last one is the rest. -/
def splitN (sep : Nat) : Nat → List Nat → List (List Nat)
  | 0, _ => []
  | 1, s => [s]
  | n + 2, s =>
    match s.dropWhile (· ≠ sep) with
    | [] => [s]
    | _ :: rest => s.takeWhile (· ≠ sep) :: splitN sep (n + 1) rest

/-- homedir.go:132-145: the last resort; `none` is an error. -/
def fromShell (e : Env) : Option (List Nat) :=
  match e.shell with
  | .prints out => if trimSpace out = [] then none else some (trimSpace out)
  | _ => none

/-- homedir.go:89-145 `dirUnix`.  homedir.go:118 compares the error of `Run` with `exec.ErrNotFound`, but an error of `Run` is never
that value itself (`exec.Cmd.Start` wraps it), so every error is returned. -/
def dirUnix (e : Env) : Option (List Nat) :=
  if e.home ≠ [] then some e.home
  else if e.os = .darwin then
    match e.dscl with
    | .prints out => if trimSpace out ≠ [] then some (trimSpace out) else fromShell e
    | _ => fromShell e
  else
    match e.getent with
    | .prints out =>
      if trimSpace out ≠ [] then
        match (splitN 58 7 (trimSpace out))[5]? with
        | some h => some h
        | none => fromShell e
      else fromShell e
    | _ => none

/-- homedir.go:148-167 `dirWindows` -/
def dirWindows (e : Env) : Option (List Nat) :=
  if e.home ≠ [] then some e.home
  else if e.userProfile ≠ [] then some e.userProfile
  else if e.homeDrive = [] ∨ e.homePath = [] then none
  else some (e.homeDrive ++ e.homePath)

/-- homedir.go:41-46 -/
def detect (e : Env) : Option (List Nat) := if e.os = .windows then dirWindows e else dirUnix e

/-! ## Dir and Reset, called by many goroutines -/

/-- A goroutine calling `Dir`.  `begun` is the time of the call (history).  helpers/homedir/homedir.go:26-53. -/
inductive Goroutine where
  | idle
  /-- homedir.go:26: called -/
  | called (begun : Nat)
  /-- homedir.go:36: the cache was empty or is not used; waits for the lock -/
  | lock (begun : Nat)
  /-- returned -/
  | returned (begun : Nat) (r : Option (List Nat))
  deriving DecidableEq, Repr

/-- homedir.go:19-20 `homedirCache` and the goroutines.  Every step takes one unit of time. -/
structure State where
  cache : List Nat
  env : Env
  now : Nat
  goroutines : List Goroutine
  /-- history: the environment at each time -/
  past : Nat → Env
  /-- history: the times of the calls of `Reset` -/
  resets : List Nat

/-- homedir.go:19-20: the program has started, `n` goroutines. -/
def start (e : Env) (n : Nat) : State := ⟨[], e, 0, List.replicate n .idle, fun _ => e, []⟩

/-- The next state: the time goes on, and the environment is remembered.  Not in the code: the clock of the history. -/
def State.tick (s : State) (e : Env) : State :=
  { s with env := e, now := s.now + 1, past := fun t => if t ≤ s.now then s.past t else e }

/-- One step.  The reading of the cache under the read lock (homedir.go:28-33) and what is done under the write lock (36-52) are one
step each; the environment does not change within `detect`.  `disabled` is `DisableCache`, set before any call. -/
inductive Step (disabled : Bool) : State → State → Prop
  /-- the environment changes -/
  | change (s e) : Step disabled s (s.tick e)
  /-- homedir.go:83-87 `Reset` -/
  | reset (s : State) : Step disabled s { s.tick s.env with cache := [], resets := (s.now + 1) :: s.resets }
  /-- a call -/
  | call (s : State) (l₁ l₂) (h : s.goroutines = l₁ ++ .idle :: l₂) :
      Step disabled s { s.tick s.env with goroutines := l₁ ++ .called s.now :: l₂ }
  /-- homedir.go:27-34: the cached value -/
  | hit (s : State) (l₁ l₂ b) (h : s.goroutines = l₁ ++ .called b :: l₂) (hd : disabled = false) (hc : s.cache ≠ []) :
      Step disabled s { s.tick s.env with goroutines := l₁ ++ .returned b (some s.cache) :: l₂ }
  /-- homedir.go:27-34: no cached value -/
  | miss (s : State) (l₁ l₂ b) (h : s.goroutines = l₁ ++ .called b :: l₂) (hd : disabled = true ∨ s.cache = []) :
      Step disabled s { s.tick s.env with goroutines := l₁ ++ .lock b :: l₂ }
  /-- homedir.go:36-52: detection fails -/
  | fail (s : State) (l₁ l₂ b) (h : s.goroutines = l₁ ++ .lock b :: l₂) (hd : detect s.env = none) :
      Step disabled s { s.tick s.env with goroutines := l₁ ++ .returned b none :: l₂ }
  /-- homedir.go:36-52: detection succeeds -/
  | found (s : State) (l₁ l₂ b d) (h : s.goroutines = l₁ ++ .lock b :: l₂) (hd : detect s.env = some d) :
      Step disabled s { s.tick s.env with goroutines := l₁ ++ .returned b (some d) :: l₂, cache := d }
  /-- the goroutine goes on and may call again -/
  | next (s : State) (l₁ l₂ b r) (h : s.goroutines = l₁ ++ .returned b r :: l₂) :
      Step disabled s { s.tick s.env with goroutines := l₁ ++ .idle :: l₂ }

/-- helpers/homedir/homedir.go:19-53, 83-87: the states that calls of `Dir` and `Reset` and changes of the environment lead to. -/
inductive Reach (disabled : Bool) (e : Env) (n : Nat) : State → Prop
  | start : Reach disabled e n (start e n)
  | step {s s'} : Reach disabled e n s → Step disabled s s' → Reach disabled e n s'

/-! ## Expand -/

/-- The elements of a path (homedir.go:76): what is between the slashes. -/
def elements : List Nat → List (List Nat)
  | [] => [[]]
  | c :: s =>
    if c = 47 then [] :: elements s
    else
      match elements s with
      | [] => [[c]]
      | x :: l => (c :: x) :: l

/-- `path/filepath.Clean` on Unix (homedir.go:76, by `Join`), element by element; the list is what is kept so far, the last element first. -/
def cleanElement (rooted : Bool) (kept : List (List Nat)) (x : List Nat) : List (List Nat) :=
  if x = [] ∨ x = t!"." then kept
  else if x = t!".." then
    match kept with
    | [] => if rooted then [] else [x]
    | k :: l => if k = t!".." then x :: k :: l else l
  else x :: kept

/-- Elements with slashes between them (homedir.go:76). -/
def joinElements : List (List Nat) → List Nat
  | [] => []
  | [x] => x
  | x :: l => x ++ 47 :: joinElements l

/-- `path/filepath.Clean` on Unix (homedir.go:76, by `Join`) -/
def clean (p : List Nat) : List Nat :=
  let rooted := p.head? == some 47
  let l := ((elements p).foldl (cleanElement rooted) []).reverse
  if rooted then 47 :: joinElements l
  else if l = [] then t!"." else joinElements l

/-- `path/filepath.Join` of two elements on Unix (homedir.go:76) -/
def join (a b : List Nat) : List Nat :=
  if a ≠ [] then clean (a ++ 47 :: b)
  else if b ≠ [] then clean b
  else []

/-- homedir.go:58-77 `Expand`; `dir` is the return of `Dir`, `none` is an error. -/
def expand (dir : Option (List Nat)) (path : List Nat) : Option (List Nat) :=
  match path with
  | [] => some []
  | c :: rest =>
    if c ≠ 126 then some (c :: rest)
    else
      match rest with
      | [] => dir.map fun d => join d []
      | d :: more => if d ≠ 47 ∧ d ≠ 92 then none else dir.map fun h => join h (d :: more)

/-! ## cmd/cmd/root.go -/

/-- What the configuration file and the environment variables say about a name (viper).  `none`: nothing.
cmd/cmd/root.go:46-69. -/
abbrev Settings := List Nat → Option FlagVal

/-- A command line: the flags are parsed, then root.go:46-70 `initConfig` reads the settings, then the command runs with its
variables; `none`: it does not run (a wrong flag, or root.go:52-56).  `settings path` is what is read from the configuration file
(or the one in directory `path`) and the environment.  root.go:41-42 bind the flags `interface` and `port` to names in viper:
`viper.Get` would return the settings, and nothing in /repo calls it; the variables are not changed.
Simplification: what is printed is left out. -/
def runCommand (dir : Option (List Nat)) (settings : List Nat → Settings) (c : Cmd) (given : List (List Nat × FlagVal)) :
    Option (FlagVars × Settings) := do
  let vars ← runFlags c given
  match vars .cfgFile with
  | some (.text (x :: f)) => pure (vars, settings (x :: f))
  | _ =>
    let home ← dir
    pure (vars, settings home)

end Bac.HomeDir
