import Verif.Model.Client
/-!
# whois.go, whatnetwork.go, whoisrouter.go: discovery

The calls subscribe to a range of ids, broadcast a request, and make a result from what
the subscription returned.  What a subscription returns is the subject of Model/Utsm.lean;
here it is an arbitrary list of values.
-/

namespace Bac

/-- whois.go:9-14 `WhoIsOpts`; Go `int` is `Int`. -/
structure WhoIsOpts where
  low : Int := 0
  high : Int := 0
  globalBroadcast : Bool := false
  networkNumber : UInt16 := 0
  deriving DecidableEq, Repr, Inhabited

/-- whois.go:23-33: the limits used. -/
def WhoIsOpts.limits (o : WhoIsOpts) : Int × Int :=
  (if o.low ≤ 0 then 0 else o.low, if o.high ≤ 0 then 4194304 else o.high)

/-- whois.go:52-59: the range subscribed to.  `maxInt` is that of a 64-bit platform. -/
def WhoIsOpts.range (o : WhoIsOpts) : Int × Int :=
  if o.limits.1 = -1 ∨ o.limits.2 = -1 then (0, 9223372036854775807) else o.limits

/-- whois.go:25-27, 35: the destination. -/
def WhoIsOpts.dest (o : WhoIsOpts) (broadcast : Address) : Address :=
  { broadcast with net := if o.globalBroadcast then 0xFFFF else o.networkNumber }

/-- whois.go:36-50: the octets handed to `Send` and the error of the encoder.
`int32(low)` truncates. -/
def whoIsPack (my dest : Address) (low high : Int) : Outcome (List UInt8 × Option GoErr) := do
  let e ← Enc.new.npdu { version := 1, destination := some dest, source := some my, hopCount := 255 }
  let r := e.whoIs (Int32.ofInt low) (Int32.ofInt high)
  .ok (r.1.buf, r.2)

/-- btypes/device.go:19-35 `Device` as filled in by `WhoIs`; the text of the IP address
is represented by its four octets, the empty string by `none`. -/
structure FoundDevice where
  id : ObjectID := ⟨0, 0⟩
  deviceId : Int := 0
  ip : Option (UInt8 × UInt8 × UInt8 × UInt8) := none
  port : Int := 0
  networkNumber : Int := 0
  macMSTP : Int := 0
  maxApdu : UInt32 := 0
  segmentation : UInt32 := 0
  vendor : UInt32 := 0
  addr : Address := {}
  deriving DecidableEq, Repr, Inhabited

/-- btypes/address.go:61-71 `UDPAddr`: IP and port, `none` for the error. -/
def Address.udpAddr (a : Address) : Option ((UInt8 × UInt8 × UInt8 × UInt8) × Nat) :=
  match a.mac with
  | [a, b, c, d, e, f] => some ((a, b, c, d), (e.toNat <<< 8) ||| f.toNat)
  | _ => none

/-- whois.go:86-109: the entry made for an I-Am. -/
def foundDevice (r : IAm) : FoundDevice :=
  let macMSTP : Int := match r.addr.adr with
    | [] => 0
    | x :: _ => x.toNat
  let networkNumber : Int := if r.addr.net > 0 then r.addr.net.toNat else 0
  let dev : FoundDevice :=
    { deviceId := r.id.inst.toNat, addr := r.addr, id := r.id, maxApdu := r.maxApdu,
      segmentation := r.segmentation, vendor := r.vendor, macMSTP, networkNumber }
  match r.addr.udpAddr with
  | some (ip, port) => { dev with ip := some ip, port := port }
  | none => dev

/-- whois.go:79-113: the loop over the values; `seen` are the keys of `uniqueMap`, the
list is `uniqueList`. -/
def whoIsLoop : List Published → List UInt32 → List FoundDevice → List FoundDevice
  | [], _, l => l
  | .iam r :: vs, seen, l =>
    if r.id.inst ∈ seen then whoIsLoop vs seen l
    else whoIsLoop vs (r.id.inst :: seen) (l ++ [foundDevice r])
  | _ :: vs, seen, l => whoIsLoop vs seen l

/-- whois.go:66, 76-114: the list returned for the messages published while subscribed
(utsm/utsm.go:66 selects those in range). -/
def whoIs (o : WhoIsOpts) (published : List (Int × Published)) : List FoundDevice :=
  whoIsLoop ((published.filter fun p => p.1 ≥ o.range.1 && p.1 ≤ o.range.2).map Prod.snd) [] []

/-- whatnetwork.go:42, 51-60. -/
def whatIsNetworkNumber (published : List (Int × Published)) : List Address :=
  (published.filter fun p => p.1 ≥ 1 && p.1 ≤ 65534).filterMap fun p =>
    match p.2 with
    | .npdu n => n.source
    | _ => none

/-- whoisrouter.go:37, 45-55. -/
def whoIsRouter (published : List (Int × Published)) : List Address :=
  (published.filter fun p => p.1 ≥ 1 && p.1 ≤ 65534).flatMap fun p =>
    match p.2 with
    | .networks l => l.getD []
    | _ => []

/-- device.go:118-129: the messages published for the datagrams received, in this order. -/
def publishedBy (pending : UInt8 → Bool) (frames : List (Address × List UInt8)) :
    List (Int × Published) :=
  frames.flatMap fun f => (handleMsg f.1 pending f.2).1.filterMap fun e =>
    match e with
    | .publish id p => some (id, p)
    | .deliver _ _ => none

end Bac
