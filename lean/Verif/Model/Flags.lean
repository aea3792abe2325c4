import Verif.Text
import Verif.Model.Base
/-!
# package cmd: the flags of the commands

The commands share the variables their flags are stored in.  Package pflag stores the default
value in the variable when a flag is registered; the `init` functions run in the order of the
names of their files.
-/

namespace Bac

/-- The commands (`Use` in cmd/cmd/discover.go:22, readmultiprop.go:15, readprop.go:35, root.go:17,
whoIs.go:19, writeprop.go:16). -/
inductive Cmd where
  | discover | multi | read | root | whois | write
  deriving DecidableEq, Repr

/-- A value of a flag, with the kinds of pflag: `Int`, `Uint32`, `Uint`, `String`, `Bool`.
The calls at cmd/cmd/root.go:34-38, cmd/cmd/writeprop.go:44-62 and alike. -/
inductive FlagVal where
  | int (i : Int)
  | uint32 (n : UInt32)
  | uint (n : Nat)
  | text (s : List Nat)
  | bool (b : Bool)
  deriving DecidableEq, Repr

/-- The same kind.  pflag, see cmd/cmd/root.go:34-38. -/
def FlagVal.like : FlagVal → FlagVal → Bool
  | .int _, .int _ => true
  | .uint32 _, .uint32 _ => true
  | .uint _, .uint _ => true
  | .text _, .text _ => true
  | .bool _, .bool _ => true
  | _, _ => false

/-- The variables (cmd/cmd/discover.go:14-19, readprop.go:17-31, root.go:11-13, whoIs.go:12-15,
writeprop.go:28-32). -/
inductive FlagVar where
  | runDiscover | scanSize | printStdout | verbose | concurrency | output
  | networkNumber | deviceID | deviceIP | devicePort | deviceHardwareMac | objectID | objectType
  | arrayIndex | propertyType | listProperties | segmentation | maxADPU | getDevicePoints
  | cfgFile | interface | port | startRange | endRange | outputFilename
  | targetValue | priority | isNull
  deriving DecidableEq, Repr

/-- One call of a function `…VarP` of pflag: command, name of the flag, variable, default.
For example cmd/cmd/root.go:35. -/
structure FlagReg where
  cmd : Cmd
  name : List Nat
  var : FlagVar
  default : FlagVal
  deriving DecidableEq, Repr

/-- The `init` functions in the order in which they run: cmd/cmd/discover.go:157-164,
readmultiprop.go:173-177, cmd/cmd/readprop.go:117-131, root.go:34-36, whoIs.go:69-73, writeprop.go:44-62.
Shorthands are left out, and so is root's flag toggle (root.go:38), which has no variable. -/
def flagRegs : List FlagReg := [
  ⟨.discover, t!"size", .scanSize, .uint32 1000⟩,
  ⟨.discover, t!"stdout", .printStdout, .bool false⟩,
  ⟨.discover, t!"verbose", .verbose, .bool false⟩,
  ⟨.discover, t!"concurency", .concurrency, .int 5⟩,
  ⟨.discover, t!"output", .output, .text t!"out.json"⟩,
  ⟨.multi, t!"device", .deviceID, .int 1234⟩,
  ⟨.multi, t!"address", .deviceIP, .text t!"192.168.15.202"⟩,
  ⟨.multi, t!"dport", .devicePort, .int 47808⟩,
  ⟨.multi, t!"network", .networkNumber, .int 0⟩,
  ⟨.multi, t!"mstp", .deviceHardwareMac, .int 0⟩,
  ⟨.read, t!"device", .deviceID, .int 0⟩,
  ⟨.read, t!"address", .deviceIP, .text t!"192.168.15.202"⟩,
  ⟨.read, t!"dport", .devicePort, .int 47808⟩,
  ⟨.read, t!"network", .networkNumber, .int 0⟩,
  ⟨.read, t!"mstp", .deviceHardwareMac, .int 0⟩,
  ⟨.read, t!"adpu", .maxADPU, .int 0⟩,
  ⟨.read, t!"seg", .segmentation, .int 0⟩,
  ⟨.read, t!"objectID", .objectID, .int (-1)⟩,
  ⟨.read, t!"objectType", .objectType, .int 8⟩,
  ⟨.read, t!"property", .propertyType, .text t!"ObjectName"⟩,
  ⟨.read, t!"index", .arrayIndex, .uint32 0xFFFFFFFF⟩,
  ⟨.read, t!"list", .listProperties, .bool false⟩,
  ⟨.read, t!"device-points", .getDevicePoints, .bool false⟩,
  ⟨.root, t!"config", .cfgFile, .text []⟩,
  ⟨.root, t!"interface", .interface, .text t!"eth0"⟩,
  ⟨.root, t!"port", .port, .int 47808⟩,
  ⟨.whois, t!"discover", .runDiscover, .bool false⟩,
  ⟨.whois, t!"start", .startRange, .int (-1)⟩,
  ⟨.whois, t!"end", .endRange, .int 47808⟩,
  ⟨.whois, t!"network", .networkNumber, .int 0⟩,
  ⟨.whois, t!"out", .outputFilename, .text []⟩,
  ⟨.write, t!"device", .deviceID, .int 1234⟩,
  ⟨.write, t!"address", .deviceIP, .text t!"192.168.15.202"⟩,
  ⟨.write, t!"dport", .devicePort, .int 47808⟩,
  ⟨.write, t!"network", .networkNumber, .int 0⟩,
  ⟨.write, t!"mstp", .deviceHardwareMac, .int 0⟩,
  ⟨.write, t!"objectID", .objectID, .int 1234⟩,
  ⟨.write, t!"objectType", .objectType, .int 8⟩,
  ⟨.write, t!"property", .propertyType, .text t!"ObjectName"⟩,
  ⟨.write, t!"value", .targetValue, .text []⟩,
  ⟨.write, t!"priority", .priority, .uint 0⟩,
  ⟨.write, t!"index", .arrayIndex, .uint32 0xFFFFFFFF⟩,
  ⟨.write, t!"list", .listProperties, .bool false⟩,
  ⟨.write, t!"null", .isNull, .bool false⟩]

/-- The values of the variables; `none` is the zero value of the type.
The package variables of cmd/cmd/root.go:11-13, cmd/cmd/readprop.go:17-32, cmd/cmd/writeprop.go:28-32. -/
abbrev FlagVars := FlagVar → Option FlagVal

/-- An assignment.  Done by the calls at cmd/cmd/root.go:34-38 and alike. -/
def FlagVars.set (m : FlagVars) (v : FlagVar) (x : FlagVal) : FlagVars := fun w => if w = v then some x else m w

/-- The variables after the `init` functions: registering a flag assigns its default.
cmd/cmd/root.go:31-43, cmd/cmd/writeprop.go:34-63 and alike. -/
def registerFlags (regs : List FlagReg) : FlagVars :=
  regs.foldl (fun m r => m.set r.var r.default) (fun _ => none)

/-- cobra: the flags of a command are its own and the persistent ones of the root command
(root.go:34-36; all of them have variables and are persistent). -/
def flagsOf (regs : List FlagReg) (c : Cmd) : List FlagReg :=
  regs.filter fun r => r.cmd = c ∨ r.cmd = .root

/-- cobra and pflag: the flags given on the command line, in their order; an unknown flag or a value
of another kind is an error and the command is not run.  cmd/cmd/root.go:24-29. -/
def parseFlags (regs : List FlagReg) (c : Cmd) : List (List Nat × FlagVal) → FlagVars → Option FlagVars
  | [], m => some m
  | (name, x) :: l, m =>
    match (flagsOf regs c).find? fun r => r.name = name with
    | none => none
    | some r => if r.default.like x then parseFlags regs c l (m.set r.var x) else none

/-- The variables when a command runs.  cmd/cmd/root.go:24-29. -/
def runFlags (c : Cmd) (given : List (List Nat × FlagVal)) : Option FlagVars :=
  parseFlags flagRegs c given (registerFlags flagRegs)

end Bac
