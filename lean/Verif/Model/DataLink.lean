import Verif.Model.Discovery
/-!
# datalink/udp.go, device.go:54-129, helpers/validation: opening and receiving

Texts are lists of character codes, IP addresses lists of octets as in `net.IP`
(4 or 16 octets, nil is `[]`).  `net.ParseCIDR` is modelled from the parsed host
part and the number after the slash; parsing of dotted or hexadecimal text is not
modelled.  The operating system appears as the answer of `ListenUDP` and as the
list of results of `ReadFromUDP`.
-/

namespace Bac

/-! ## IP addresses (package net) -/

/-- `net.IP` of the address `a.b.c.d` in the 16 octet form of `net.IPv4`.  Used at btypes/address.go:66. -/
def ipv4 (a b c d : UInt8) : List UInt8 :=
  [0, 0, 0, 0, 0, 0, 0, 0, 0, 0, 0xFF, 0xFF, a, b, c, d]

/-- `net.IP.To4`: nil (`[]`) for an address that is not an IPv4 address.
Used at datalink/udp.go:100, 126, 171, helpers/ipbytes/ip.go:14. -/
def to4 (ip : List UInt8) : List UInt8 :=
  if ip.length = 4 then ip
  else if ip.length = 16 ∧ ip.take 12 = [0, 0, 0, 0, 0, 0, 0, 0, 0, 0, 0xFF, 0xFF] then ip.drop 12
  else []

/-- `net.CIDRMask`: `ones` leading ones in a mask of `len` octets.  Within `net.ParseCIDR`, datalink/udp.go:65. -/
def cidrMask : (len ones : Nat) → List UInt8
  | 0, _ => []
  | l + 1, n =>
    if 8 ≤ n then 0xFF :: cidrMask l (n - 8)
    else (~~~((0xFF : UInt8) >>> UInt8.ofNat n)) :: cidrMask l 0

/-- The text before the slash: not an address, an IPv4 or an IPv6 address.  datalink/udp.go:52, 65. -/
inductive Host where
  | invalid
  | v4 (a b c d : UInt8)
  | v6 (octets : List UInt8)
  deriving DecidableEq, Repr

/-- What `net.ParseCIDR` gives: the address in 16 octets, network and mask.  datalink/udp.go:65. -/
structure CIDR where
  ip : List UInt8
  net : List UInt8
  mask : List UInt8
  deriving DecidableEq, Repr

/-- `net.ParseCIDR` of `fmt.Sprintf("%s/%d", host, ones)`: the number must lie
between 0 and the number of bits of the address.  datalink/udp.go:65, 168; helpers/validation/vaildation.go:11-12. -/
def parseCIDR (host : Host) (ones : Int) : Option CIDR :=
  match host with
  | .invalid => none
  | .v4 a b c d =>
    if 0 ≤ ones ∧ ones ≤ 32 then
      let m := cidrMask 4 ones.toNat
      some { ip := ipv4 a b c d, net := List.zipWith (· &&& ·) [a, b, c, d] m, mask := m }
    else none
  | .v6 o =>
    if 0 ≤ ones ∧ ones ≤ 128 then
      let m := cidrMask 16 ones.toNat
      some { ip := o, net := List.zipWith (· &&& ·) o m, mask := m }
    else none

/-! ## datalink/udp.go -/

/-- datalink/udp.go:131-148 `UDPToAddress`: the port is cut to 16 bits; an address
of fewer than four octets is an index out of range. -/
def udpToAddress (ip : List UInt8) (port : Int) : Outcome Address :=
  let p : UInt16 := UInt16.ofInt port
  match ip with
  | a :: b :: c :: d :: _ =>
    .ok { mac := [a, b, c, d, (p >>> 8).toUInt8, (p &&& 0x00FF).toUInt8], macLen := 6 }
  | _ => .panic .indexOutOfRange

/-- datalink/udp.go:123-129 `IPPortToAddress`. -/
def ipPortToAddress (ip : List UInt8) (port : Int) : Outcome Address := udpToAddress (to4 ip) port

/-- datalink/udp.go:14-19 `udpDataLink`: the port the socket is bound to, on all
interfaces (0: one chosen by the operating system), and the two addresses. -/
structure Link where
  listen : Int
  my : Address
  broadcast : Address
  deriving DecidableEq, Repr

/-- Why a link is not opened.  datalink/udp.go:50-86, 151-177. -/
inductive LinkErr where
  | cidr
  | listen
  | interface
  deriving DecidableEq, Repr

/-- datalink/udp.go:75: `net.ResolveUDPAddr("udp4", ":port")`; its error is
ignored, and `net.ListenUDP` takes a nil address as port 0. -/
def resolvePort (port : Int) : Int := if 0 ≤ port ∧ port ≤ 65535 then port else 0

/-- datalink/udp.go:70-73: the broadcast address of a network. -/
def broadcastOf (c : CIDR) : List UInt8 :=
  List.zipWith (fun n m => n ||| ~~~m) (c.net.take 4) (c.mask.take 4)

/-- datalink/udp.go:60-86 `dataLink`; `free` tells whether `ListenUDP` succeeds.
The broadcast address always has port 0xBAC0. -/
def dataLink (free : Int → Bool) (host : Host) (ones port : Int) : Outcome (Except LinkErr Link) :=
  let port := if port = 0 then 0xBAC0 else port
  match parseCIDR host ones with
  | none => .ok (.error .cidr)
  | some c =>
    if free (resolvePort port) then
      match ipPortToAddress c.ip port, ipPortToAddress (broadcastOf c) 0xBAC0 with
      | .ok my, .ok br => .ok (.ok { listen := resolvePort port, my := my, broadcast := br })
      | .panic k, _ => .panic k
      | _, .panic k => .panic k
      | _, _ => .diverge
    else .ok (.error .listen)

/-- datalink/udp.go:51-58 `NewUDPDataLinkFromIP`. -/
def newUDPDataLinkFromIP (free : Int → Bool) (host : Host) (subNet port : Int) :
    Outcome (Except LinkErr Link) :=
  dataLink free host subNet port

/-- The first argument of `NewUDPDataLink`: a text with a slash, or the name of an
interface, given here by its addresses (`none` when the system reports an error).  datalink/udp.go:27-43, 151-177. -/
inductive Iface where
  | cidr (host : Host) (ones : Int)
  | named (addrs : Option (List (Host × Int)))
  deriving DecidableEq, Repr

/-- datalink/udp.go:168-171: the address `net.ParseCIDR` gives has a `To4`. -/
def isIP4 (h : Host) (ones : Int) : Bool :=
  match parseCIDR h ones with
  | some c => to4 c.ip ≠ []
  | none => false

/-- datalink/udp.go:151-177 `FindCIDRAddress`: the first IPv4 address. -/
def findCIDRAddress (addrs : Option (List (Host × Int))) : Option (Host × Int) :=
  match addrs with
  | none => none
  | some l => l.find? (fun a => isIP4 a.1 a.2)

/-- datalink/udp.go:27-43 `NewUDPDataLink`. -/
def newUDPDataLink (free : Int → Bool) (inter : Iface) (port : Int) : Outcome (Except LinkErr Link) :=
  let port := if port = 0 then 0xBAC0 else port
  match inter with
  | .cidr h ones => dataLink free h ones port
  | .named addrs =>
    match findCIDRAddress addrs with
    | none => .ok (.error .interface)
    | some (h, ones) => dataLink free h ones port

/-! ## device.go: NewClient and ClientRun -/

/-- device.go:45-52 `ClientBuilder`; `iface = none` is the empty text.  The field
DataLink is not looked at by `NewClient`. -/
structure Config where
  iface : Option Iface := none
  host : Host := .invalid
  port : Int := 0
  subnet : Int := 0
  maxPDU : UInt16 := 0

/-- What `NewClient` builds: the link (nil when it was not opened), the size of the
read buffers, and the error returned with the client.  device.go:102-114. -/
structure Opened where
  link : Option Link
  bufSize : Nat
  err : Option LinkErr
  deriving DecidableEq, Repr

/-- device.go:76-78: the size of the read buffers. -/
def bufferSize (maxPDU : UInt16) : Nat := if maxPDU = 0 then 1476 else maxPDU.toNat

/-- device.go:55-115 `NewClient`.  The results of the three validations are
ignored; `NewUDPDataLinkFromIP` gets port and subnet in this order (line 92). -/
def newClient (free : Int → Bool) (cb : Config) : Outcome Opened :=
  let port := if cb.port = 0 then 0xBAC0 else cb.port
  let r := match cb.iface with
    | some i => newUDPDataLink free i port
    | none => newUDPDataLinkFromIP free cb.host port cb.subnet
  match r with
  | .ok (.ok l) => .ok { link := some l, bufSize := bufferSize cb.maxPDU, err := none }
  | .ok (.error e) => .ok { link := none, bufSize := bufferSize cb.maxPDU, err := some e }
  | .panic k => .panic k
  | .diverge => .diverge

/-- One result of `ReadFromUDP`: an error, or a datagram with its sender.  datalink/udp.go:95-103. -/
inductive Incoming where
  | error
  | datagram (ip : List UInt8) (port : Int) (octets : List UInt8)
  deriving DecidableEq, Repr

/-- How `ClientRun` stands after the given results: it waits for the next one, it
returned, or it crashed.  device.go:117-129. -/
inductive RunState where
  | waiting
  | returned
  | crashed (k : PanicKind)
  deriving DecidableEq, Repr

/-- device.go:117-129 `ClientRun` with datalink/udp.go:95-103 `Receive`: the calls
of `handleMsg` (each in a goroutine) for the given results.  `ReadFromUDP` fills
the buffer and drops the rest of the datagram; `b[:n]` is what it filled. -/
def clientRun (bufSize : Nat) : List Incoming → List (Address × List UInt8) × RunState
  | [] => ([], .waiting)
  | .error :: _ => ([], .returned)
  | .datagram ip port octets :: rest =>
    match udpToAddress (to4 ip) port with
    | .ok a =>
      let r := clientRun bufSize rest
      ((a, octets.take bufSize) :: r.1, r.2)
    | .panic k => ([], .crashed k)
    | .diverge => ([], .waiting)

/-! ## helpers/validation -/

/-- The decimal digits of a number as character codes ('0' is 48).
Within `fmt.Sprintf`, helpers/validation/vaildation.go:21. -/
def decimal (n : Nat) : List Nat :=
  if h : n < 10 then [48 + n] else decimal (n / 10) ++ [48 + n % 10]
termination_by n
decreasing_by omega

/-- `fmt.Sprintf("%d", n)`; '-' is 45.  helpers/validation/vaildation.go:21, datalink/udp.go:52, 75. -/
def sprintD (n : Int) : List Nat :=
  if n < 0 then 45 :: decimal n.natAbs else decimal n.toNat

/-- A sequence of character classes `[lo-hi]`.  helpers/validation/vaildation.go:22. -/
abbrev Classes := List (Nat × Nat)

/-- The whole text matches the sequence.  helpers/validation/vaildation.go:22. -/
def matchClasses : Classes → List Nat → Bool
  | [], [] => true
  | (lo, hi) :: cs, c :: t => (lo ≤ c && c ≤ hi) && matchClasses cs t
  | _, _ => false

/-- helpers/validation/vaildation.go:22: the alternatives of the expression, in
order; `x{m,n}` is written as one alternative for each length. -/
def portPattern : List Classes :=
  let d := (48, 57)
  let z5 := (48, 53)
  let lit (n : Nat) := (48 + n, 48 + n)
  [[lit 6, lit 5, lit 5, lit 3, (48, 53)], [lit 6, lit 5, lit 5, (48, 50), d],
   [lit 6, lit 5, (48, 52), d, d], [lit 6, (48, 52), d, d, d], [(49, 53), d, d, d, d],
   [], [z5], [z5, z5], [z5, z5, z5], [z5, z5, z5, z5], [z5, z5, z5, z5, z5],
   [d], [d, d], [d, d, d], [d, d, d, d]]

/-- helpers/validation/vaildation.go:20-27 `ValidPort`. -/
def validPort (port : Int) : Bool := portPattern.any (fun p => matchClasses p (sprintD port))

/-- helpers/validation/vaildation.go:10-18 `ValidCIDR`. -/
def validCIDR (host : Host) (cidr : Int) : Bool := (parseCIDR host cidr).isSome

end Bac
