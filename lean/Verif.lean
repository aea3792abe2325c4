import Verif.Model.Base
import Verif.Model.Types
import Verif.Model.Encoder
import Verif.Model.Decoder
import Verif.Model.Messages
import Verif.Model.Meta
import Verif.Model.Address
import Verif.Model.Services
import Verif.Model.ReadMultiple
import Verif.Model.Client
import Verif.Spec.Wire
import Verif.Spec.Run
import Verif.Spec.AppVal
import Verif.Spec.Headers
import Verif.Spec.Services
import Verif.Spec.Datagram
import Verif.Lemmas.Core
import Verif.Lemmas.Tags
import Verif.Lemmas.Values
import Verif.Lemmas.AppData
import Verif.Lemmas.Failure
import Verif.Lemmas.Bits
import Verif.Lemmas.Messages
import Verif.Lemmas.Services
import Verif.Lemmas.ReadMultiple
import Verif.Lemmas.Client
import Verif.Lemmas.EndToEnd
import Verif.Lemmas.Calls
import Verif.Props.Primitives
import Verif.Props.AppData
import Verif.Props.Values
import Verif.Props.Messages
import Verif.Props.Conforming
import Verif.Props.Services
import Verif.Props.Writes
import Verif.Props.ReadMultiple
import Verif.Props.Receive
import Verif.Props.Incoming
import Verif.Props.Calls
import Verif.Props.EndToEnd
import Verif.Spec.Elements
import Verif.Lemmas.Elements
import Verif.Props.Elements
import Verif.Model.Tsm
import Verif.Spec.Tsm
import Verif.Lemmas.Tsm
import Verif.Props.Tsm
import Verif.Model.Utsm
import Verif.Spec.Utsm
import Verif.Lemmas.Utsm
import Verif.Props.Utsm
import Verif.Model.Discovery
import Verif.Spec.Discovery
import Verif.Lemmas.Discovery
import Verif.Props.Discovery
import Verif.Model.ObjectList
import Verif.Spec.ObjectList
import Verif.Lemmas.ObjectList
import Verif.Props.ObjectList
import Verif.Props.ObjectScan
import Verif.Text
import Verif.Model.DataLink
import Verif.Spec.DataLink
import Verif.Lemmas.DataLink
import Verif.Props.DataLink
import Verif.Model.Names
import Verif.Spec.Names
import Verif.Lemmas.Names
import Verif.Props.Names
import Verif.Model.Network
import Verif.Spec.Network
import Verif.Lemmas.Network
import Verif.Props.Network
import Verif.Props.NetDiscover
import Verif.Props.NetObjects
import Verif.Props.Points
import Verif.Model.System
import Verif.Lemmas.System
import Verif.Lemmas.Grows
import Verif.Props.System
import Verif.Model.Discover
import Verif.Spec.Discover
import Verif.Lemmas.Discover
import Verif.Props.Discover
import Verif.Model.WriteCmd
import Verif.Lemmas.WriteCmd
import Verif.Props.WriteCmd
import Verif.Model.DiscoveryCall
import Verif.Lemmas.DiscoveryCall
import Verif.Props.DiscoveryCall
import Verif.Model.Lifecycle
import Verif.Lemmas.Lifecycle
import Verif.Props.Lifecycle
import Verif.Model.Flags
import Verif.Props.Flags
import Verif.Lemmas.Stable
import Verif.Props.Stable
import Verif.Props.Exact
import Verif.Props.Blocked
import Verif.Props.Precise
import Verif.Props.Timed
import Verif.Props.TimedCalls
import Verif.Props.Process
import Verif.Props.DatePattern
import Verif.Props.Races
import Verif.Props.HomeDir
import Verif.Props.Produced
import Verif.Props.AddrText
import Verif.Props.Limits
import Verif.Props.SharedMemory
import Verif.Props.BitStrings
import Verif.Props.ObjectInfo
import Verif.Props.Exactly
import Verif.Props.Answered
import Verif.Props.Paths
import Verif.Props.Meta
import Verif.Props.Spoiled
import Verif.Props.Opened
import Verif.Props.Crash
import Verif.Props.Broadcast
import Verif.Props.Answers
import Verif.Props.Frames
import Verif.Props.Cut
import Verif.Props.BitAccess
import Verif.Props.ExactCalls
import Verif.Props.Lost
import Verif.Props.Numbers
import Verif.Props.Refused
import Verif.Props.Ports
import Verif.Props.Octets
import Verif.Props.Listed
import Verif.Axioms
