import Verif.Props.Primitives
import Verif.Props.AppData
import Verif.Props.Values
import Verif.Props.Messages
import Verif.Props.Conforming
import Verif.Props.Services
import Verif.Props.Writes
import Verif.Props.ReadMultiple
import Verif.Props.Receive
import Verif.Props.Incoming
import Verif.Props.Calls
import Verif.Props.EndToEnd
import Verif.Props.Elements
import Verif.Props.Tsm
import Verif.Props.Utsm
import Verif.Props.Discovery
import Verif.Props.ObjectList
import Verif.Props.ObjectScan
import Verif.Props.DataLink
import Verif.Props.Names
import Verif.Props.Network
import Verif.Props.NetDiscover
import Verif.Props.NetObjects
import Verif.Props.Points
import Verif.Props.System
import Verif.Props.Discover
import Verif.Props.WriteCmd
import Verif.Props.DiscoveryCall
import Verif.Props.Lifecycle
import Verif.Props.Flags
import Verif.Props.Stable
import Verif.Props.Exact
import Verif.Props.Blocked
import Verif.Props.Precise
import Verif.Props.Timed
import Verif.Props.TimedCalls
import Verif.Props.Process
import Verif.Props.DatePattern
import Verif.Props.Races
import Verif.Props.HomeDir
import Verif.Props.Produced
import Verif.Props.AddrText
import Verif.Props.Limits
import Verif.Props.SharedMemory
import Verif.Props.BitStrings
import Verif.Props.ObjectInfo
import Verif.Props.Exactly
import Verif.Props.Answered
import Verif.Props.Paths
import Verif.Props.Meta
import Verif.Props.Spoiled
import Verif.Props.Opened
import Verif.Props.Crash
import Verif.Props.Broadcast
import Verif.Props.Answers
import Verif.Props.Frames
import Verif.Props.Cut
import Verif.Props.BitAccess
import Verif.Props.ExactCalls
import Verif.Props.Lost
import Verif.Props.Numbers
import Verif.Props.Refused
import Verif.Props.Ports
import Verif.Props.Octets
import Verif.Props.Listed
import Lean.Util.CollectAxioms
import Lean.Elab.Command
/-!
# Axioms

Fails to compile if a theorem of `Bac.Props` depends on anything but the three standard
axioms of Lean.
-/

open Lean Elab Command in
run_cmd do
  let env ← getEnv
  for (n, c) in env.constants.map₁.toList do
    if (`Bac.Props).isPrefixOf n && !n.isInternal then
      if let .thmInfo _ := c then
        for a in ← liftCoreM (collectAxioms n) do
          unless [``propext, ``Classical.choice, ``Quot.sound].contains a do
            throwError "{n} depends on {a}"
