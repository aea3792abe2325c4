import Verif.Lemmas.DataLink
import Verif.Props.Incoming
/-!
# Properties of the data link and of the receive loop (C60-C63, C95-C99)
-/

namespace Bac.Props

open Spec (NetHeader)

/-! ## C60 UDP endpoints and BACnet addresses -/

/-- C60: for every IPv4 address, in the form of four or of sixteen octets, and
every port, the address built has the six octets of the endpoint, is a unicast
address, and converts back to the same address and port. -/
theorem C60_there_and_back (a b c d : UInt8) (port : Nat) (h : port < 65536) (ip : List UInt8)
    (hip : ip = [a, b, c, d] ∨ ip = ipv4 a b c d) :
    ∃ A, ipPortToAddress ip port = .ok A ∧ Spec.IsEndpoint A.mac a b c d port ∧
      A.isUnicast = true ∧ A.isBroadcast = false ∧
      A.udpAddr = some ((a, b, c, d), port) := by
  have h4 : to4 ip = [a, b, c, d] := by rcases hip with rfl | rfl <;> simp
  obtain ⟨A, hA, ⟨hi, lo, hm, hp⟩, hml, hn, _⟩ := udpToAddress_quad a b c d port h
  refine ⟨A, by unfold ipPortToAddress; rw [h4]; exact hA, ⟨hi, lo, hm, hp⟩, ?_, ?_, ?_⟩
  · simp [Address.isUnicast, hml]
  · simp [Address.isBroadcast, hml, hn]
  · exact udpAddr_endpoint ⟨hi, lo, hm, hp⟩

/-- C60, the other direction: an address with a hardware address of six octets is
converted to an endpoint from which the same hardware address is built. -/
theorem C60_back_and_there (A : Address) (hl : A.mac.length = 6) :
    ∃ a b c d port B, A.udpAddr = some ((a, b, c, d), port) ∧
      ipPortToAddress (ipv4 a b c d) port = .ok B ∧ B.mac = A.mac := by
  match hm : A.mac, hl with
  | [m0, m1, m2, m3, m4, m5], _ =>
    have hlt : m4.toNat * 256 + m5.toNat < 65536 := by
      have := m4.toNat_lt; have := m5.toNat_lt; omega
    obtain ⟨B, hB, ⟨hi, lo, hbm, hp⟩, _⟩ := udpToAddress_quad m0 m1 m2 m3 (m4.toNat * 256 + m5.toNat) hlt
    refine ⟨m0, m1, m2, m3, m4.toNat * 256 + m5.toNat, B, ?_, ?_, ?_⟩
    · exact udpAddr_endpoint ⟨m4, m5, hm, rfl⟩
    · simpa [ipPortToAddress] using hB
    · rw [hbm]
      have := m4.toNat_lt; have := m5.toNat_lt; have := hi.toNat_lt; have := lo.toNat_lt
      have e1 : hi = m4 := UInt8.toNat_inj.1 (by omega)
      have e2 : lo = m5 := UInt8.toNat_inj.1 (by omega)
      rw [e1, e2]

example : ipPortToAddress (ipv4 192 168 15 10) 47808 =
    .ok { mac := [192, 168, 15, 10, 0xBA, 0xC0], macLen := 6 } := by decide

/-! ## C61 The broadcast address -/

/-- C61: for every host address and prefix length the link broadcasts to the last
address of the host's subnet, and its own address is the host's. -/
theorem C61_broadcast (free : Int → Bool) (a b c d : UInt8) (p : Nat) (hp : p ≤ 32) (port : Nat)
    (hport : 0 < port ∧ port < 65536) (hfree : free port = true) :
    ∃ l e f g h, dataLink free (.v4 a b c d) p port = .ok (.ok l) ∧ l.listen = port ∧
      Spec.IsEndpoint l.my.mac a b c d port ∧
      Spec.IsEndpoint l.broadcast.mac e f g h 47808 ∧
      Spec.IsLast p (Spec.ipNumber a b c d) (Spec.ipNumber e f g h) := by
  have e : (if (port : Int) = 0 then (0xBAC0 : Int) else port) = port := if_neg (by omega)
  have er : resolvePort port = port := if_pos (by omega)
  obtain ⟨l, e', f, g, i, h1, h2, h3, h4, h5⟩ := dataLink_v4 free a b c d p hp port (by rw [e, er]; exact hfree)
  rw [e, er] at h2
  rw [e] at h3
  obtain ⟨A, hA, hE, _⟩ := udpToAddress_quad a b c d port hport.2
  rw [h3] at hA
  cases hA
  exact ⟨l, e', f, g, i, h1, h2, hE, h4, h5⟩

example : (match dataLink (fun _ => true) (.v4 10 37 200 9) 13 47809 with
    | .ok (.ok l) => some (l.my.mac, l.broadcast.mac)
    | _ => none) = some ([10, 37, 200, 9, 0xBA, 0xC1], [10, 39, 255, 255, 0xBA, 0xC0]) := by decide

/-! ## C62 A client opened by IP address -/

/-- C62 fails: with the default port and with every port above 32 a client with an
IPv4 address gets no link, whatever the prefix length, and an error. -/
theorem C62_fails (free : Int → Bool) (cb : Config) (a b c d : UInt8) (hi : cb.iface = none)
    (hh : cb.host = .v4 a b c d) (hp : cb.port ≤ 0 ∨ 32 < cb.port) :
    ∃ o, newClient free cb = .ok o ∧ o.link = none ∧ o.err = some .cidr := by
  have hb : ∀ p : Int, (p < 0 ∨ 32 < p) → newUDPDataLinkFromIP free cb.host p cb.subnet = .ok (.error .cidr) := by
    intro p h
    rw [newUDPDataLinkFromIP, hh]
    exact dataLink_bad free a b c d p cb.subnet h
  refine ⟨⟨none, bufferSize cb.maxPDU, some .cidr⟩, ?_, rfl, rfl⟩
  simp only [newClient, hi]
  by_cases h0 : cb.port = 0
  · rw [if_pos h0, hb _ (by decide)]
  · rw [if_neg h0, hb _ (by omega)]

/-- C62 fails also for the ports that are accepted: the socket is bound to the port
given as prefix length (47808 for 0), and the broadcasts go to the last address of
the subnet whose prefix length is the port. -/
theorem C62_fails_swapped (free : Int → Bool) (cb : Config) (a b c d : UInt8) (hi : cb.iface = none)
    (hh : cb.host = .v4 a b c d) (hp : 1 ≤ cb.port ∧ cb.port ≤ 32) (hs : 0 ≤ cb.subnet ∧ cb.subnet ≤ 32)
    (hfree : ∀ p, free p = true) :
    ∃ o l e f g i, newClient free cb = .ok o ∧ o.link = some l ∧ o.err = none ∧
      l.listen = (if cb.subnet = 0 then 47808 else cb.subnet) ∧
      Spec.IsEndpoint l.broadcast.mac e f g i 47808 ∧
      Spec.IsLast cb.port.toNat (Spec.ipNumber a b c d) (Spec.ipNumber e f g i) := by
  obtain ⟨n, hn⟩ : ∃ n : Nat, cb.port = n := ⟨cb.port.toNat, by omega⟩
  obtain ⟨l, e, f, g, i, h1, h2, h3, h4, h5⟩ := dataLink_v4 free a b c d n (by omega) cb.subnet (hfree _)
  refine ⟨⟨some l, bufferSize cb.maxPDU, none⟩, l, e, f, g, i, ?_, rfl, rfl, ?_, h4, ?_⟩
  · simp only [newClient, hi]
    rw [if_neg (by omega), newUDPDataLinkFromIP, hh, hn, h1]
  · rw [h2]
    unfold resolvePort
    by_cases h0 : cb.subnet = 0
    · simp [h0]
    · simp [h0]; omega
  · rw [hn]; exact h5

/-- C62, what holds: the data link itself, called with the arguments in their
places, listens on the port, on every interface, and has the address given and the
broadcast address of the subnet given. -/
theorem C62_link_partial (free : Int → Bool) (a b c d : UInt8) (p : Nat) (hp : p ≤ 32) (port : Nat)
    (hport : 0 < port ∧ port < 65536) (hfree : free port = true) :
    ∃ l e f g i, newUDPDataLinkFromIP free (.v4 a b c d) p port = .ok (.ok l) ∧ l.listen = port ∧
      Spec.IsEndpoint l.my.mac a b c d port ∧ Spec.IsEndpoint l.broadcast.mac e f g i 47808 ∧
      Spec.IsLast p (Spec.ipNumber a b c d) (Spec.ipNumber e f g i) :=
  C61_broadcast free a b c d p hp port hport hfree

/-- C62 fails for the data link too: a port that is no port number is not refused;
the socket gets a port chosen by the operating system. -/
theorem C62_fails_port (free : Int → Bool) (a b c d : UInt8) (p : Nat) (hp : p ≤ 32) (port : Int)
    (hport : port < 0 ∨ 65535 < port) (hfree : free 0 = true) :
    ∃ l, newUDPDataLinkFromIP free (.v4 a b c d) p port = .ok (.ok l) ∧ l.listen = 0 := by
  have e : (if port = 0 then (0xBAC0 : Int) else port) = port := if_neg (by omega)
  have er : resolvePort port = 0 := if_neg (by omega)
  obtain ⟨l, _, _, _, _, h1, h2, _⟩ := dataLink_v4 free a b c d p hp port (by rw [e, er]; exact hfree)
  exact ⟨l, h1, by rw [h2, e, er]⟩

/-- C62 fails for IPv6: opening a link for an address that is not an IPv4 address
crashes once the socket is open. -/
theorem C62_fails_ipv6 (free : Int → Bool) (o : List UInt8) (ho : o.length = 16)
    (hn : o.take 12 ≠ [0, 0, 0, 0, 0, 0, 0, 0, 0, 0, 0xFF, 0xFF]) (p : Nat) (hp : p ≤ 128) (port : Int)
    (hfree : ∀ q, free q = true) :
    newUDPDataLinkFromIP free (.v6 o) p port = .panic .indexOutOfRange := by
  have h4 : to4 o = [] := by
    rw [to4, if_neg (by omega), if_neg (by simp [hn])]
  simp only [newUDPDataLinkFromIP, dataLink]
  rw [parseCIDR, if_pos (by omega)]
  simp [hfree, ipPortToAddress, h4, udpToAddress]

example : newClient (fun _ => true) { host := .v4 192 168 15 10, port := 47808, subnet := 24 } =
    .ok { link := none, bufSize := 1476, err := some .cidr } := by decide
example : newClient (fun _ => true) { host := .v4 192 168 15 10, port := 16, subnet := 24 } =
    .ok { link := some { listen := 24, my := { mac := [192, 168, 15, 10, 0, 24], macLen := 6 }, broadcast := { mac := [192, 168, 255, 255, 0xBA, 0xC0], macLen := 6 } }, bufSize := 1476, err := none } := by
  decide

/-! ## C98 The port of broadcasts -/

/-- C98 fails: on every port other than 47808 the broadcasts go to another port
than the one the link listens on. -/
theorem C98_fails (free : Int → Bool) (a b c d : UInt8) (p : Nat) (hp : p ≤ 32) (port : Nat)
    (hport : 0 < port ∧ port < 65536) (hne : port ≠ 47808) (hfree : free port = true) :
    ∃ l, newUDPDataLinkFromIP free (.v4 a b c d) p port = .ok (.ok l) ∧
      ∀ ip q, l.broadcast.udpAddr = some (ip, q) → (q : Int) ≠ l.listen := by
  obtain ⟨l, e, f, g, i, h1, h2, _, hb, _⟩ := C62_link_partial free a b c d p hp port hport hfree
  refine ⟨l, h1, fun ip q h => ?_⟩
  rw [udpAddr_endpoint hb] at h
  simp only [Option.some.injEq, Prod.mk.injEq] at h
  rw [h2, ← h.2]
  omega

/-- C98 for the port 47808. -/
theorem C98_partial (free : Int → Bool) (a b c d : UInt8) (p : Nat) (hp : p ≤ 32)
    (hfree : free 47808 = true) :
    ∃ l ip, newUDPDataLinkFromIP free (.v4 a b c d) p 47808 = .ok (.ok l) ∧
      l.listen = 47808 ∧ l.broadcast.udpAddr = some (ip, 47808) := by
  obtain ⟨l, e, f, g, i, h1, h2, _, hb, _⟩ :=
    C62_link_partial free a b c d p hp 47808 (by decide) hfree
  exact ⟨l, (e, f, g, i), h1, h2, udpAddr_endpoint hb⟩

/-! ## C99 A client opened by the name of an interface -/

/-- C99: a client opened by the name of an interface uses the first IPv4 address of
the interface with its subnet, and the port given. -/
theorem C99_interface (free : Int → Bool) (cb : Config) (before after : List (Host × Int))
    (hbefore : ∀ x ∈ before, ∃ o : List UInt8, x.1 = .v6 o ∧ o.length = 16 ∧
      o.take 12 ≠ [0, 0, 0, 0, 0, 0, 0, 0, 0, 0, 0xFF, 0xFF])
    (a b c d : UInt8) (p : Nat) (hp : p ≤ 32)
    (hi : cb.iface = some (.named (some (before ++ (Host.v4 a b c d, (p : Int)) :: after))))
    (port : Nat) (hport : 0 < port ∧ port < 65536) (hcp : cb.port = port) (hfree : free port = true) :
    ∃ o l e f g i, newClient free cb = .ok o ∧ o.link = some l ∧ o.err = none ∧ l.listen = port ∧
      Spec.IsEndpoint l.my.mac a b c d port ∧ Spec.IsEndpoint l.broadcast.mac e f g i 47808 ∧
      Spec.IsLast p (Spec.ipNumber a b c d) (Spec.ipNumber e f g i) := by
  have hfind : findCIDRAddress (some (before ++ (Host.v4 a b c d, (p : Int)) :: after)) = some (Host.v4 a b c d, (p : Int)) := by
    rw [findCIDRAddress, List.find?_append]
    have hnone : before.find? (fun x => isIP4 x.1 x.2) = none := by
      rw [List.find?_eq_none]
      intro x hx
      obtain ⟨o, ho, hl, ht⟩ := hbefore x hx
      rw [isIP4, ho, parseCIDR]
      split
      next c hc =>
        split at hc
        · cases hc
          rw [to4, if_neg (by simp [hl]), if_neg (by simp [ht])]
          simp
        · cases hc
      next => simp
    rw [hnone, Option.none_or, List.find?_cons_of_pos]
    rw [isIP4, parseCIDR, if_pos (by omega)]
    simp
  obtain ⟨l, e, f, g, i, h1, h2, h3, h4, h5⟩ := C61_broadcast free a b c d p hp port hport hfree
  refine ⟨⟨some l, bufferSize cb.maxPDU, none⟩, l, e, f, g, i, ?_, rfl, rfl, h2, h3, h4, h5⟩
  have hne : ¬ (port : Int) = 0 := by omega
  simp only [newClient, hi, hcp, if_neg hne, newUDPDataLink, hfind, h1]

/-- C99, no address: an interface without IPv4 address gives no link and an error. -/
theorem C99_no_address (free : Int → Bool) (cb : Config) (addrs : List (Host × Int))
    (hv6 : ∀ x ∈ addrs, ∃ o : List UInt8, x.1 = .v6 o ∧ o.length = 16 ∧
      o.take 12 ≠ [0, 0, 0, 0, 0, 0, 0, 0, 0, 0, 0xFF, 0xFF])
    (hi : cb.iface = some (.named (some addrs))) :
    ∃ o, newClient free cb = .ok o ∧ o.link = none ∧ o.err = some .interface := by
  have hfind : findCIDRAddress (some addrs) = none := by
    rw [findCIDRAddress, List.find?_eq_none]
    intro x hx
    obtain ⟨o, ho, hl, ht⟩ := hv6 x hx
    rw [isIP4, ho, parseCIDR]
    split
    next c hc =>
      split at hc
      · cases hc
        rw [to4, if_neg (by simp [hl]), if_neg (by simp [ht])]
        simp
      · cases hc
    next => simp
  exact ⟨⟨none, bufferSize cb.maxPDU, some .interface⟩, by simp only [newClient, hi, newUDPDataLink, hfind], rfl, rfl⟩

example : newClient (fun _ => true) { iface := some (.named (some
      [(.v6 [0xFE, 0x80, 0, 0, 0, 0, 0, 0, 0, 0, 0, 0, 0, 0, 0, 1], 64), (.v4 192 168 15 10, 24)])), port := 47809 } =
    .ok { link := some { listen := 47809, my := { mac := [192, 168, 15, 10, 0xBA, 0xC1], macLen := 6 }, broadcast := { mac := [192, 168, 15, 255, 0xBA, 0xC0], macLen := 6 } }, bufSize := 1476, err := none } := by
  decide

/-! ## C97 Senders of datagrams -/

/-- C97 fails: a datagram from an IPv6 sender crashes the receive loop, wherever it
comes in the stream. -/
theorem C97_fails (size : Nat) (pre rest : List Incoming) (o : List UInt8) (port : Int) (b : List UInt8)
    (hpre : ∀ x ∈ pre, ∃ a b c d port octets, x = .datagram (ipv4 a b c d) port octets)
    (ho : o.length = 16) (hn : o.take 12 ≠ [0, 0, 0, 0, 0, 0, 0, 0, 0, 0, 0xFF, 0xFF]) :
    (clientRun size (pre ++ .datagram o port b :: rest)).2 = .crashed .indexOutOfRange := by
  induction pre with
  | nil =>
    have h4 : to4 o = [] := by
      rw [to4, if_neg (by omega), if_neg (by simp [hn])]
    simp [clientRun, h4, udpToAddress]
  | cons x xs ih =>
    obtain ⟨a, b', c, d, port', octets, rfl⟩ := hpre x (by simp)
    simp only [List.cons_append, clientRun, to4_ipv4, udpToAddress]
    exact ih (fun y hy => hpre y (by simp [hy]))

/-- C97 for IPv4 senders: each datagram, cut to the size of the buffer, is handed
over, in order, with the address of its sender, and the loop waits for the next. -/
theorem C97_partial (size : Nat) (l : List (UInt8 × UInt8 × UInt8 × UInt8 × Nat × List UInt8))
    (hp : ∀ x ∈ l, x.2.2.2.2.1 < 65536) :
    (clientRun size (l.map fun x => .datagram (ipv4 x.1 x.2.1 x.2.2.1 x.2.2.2.1) x.2.2.2.2.1 x.2.2.2.2.2)).2 = .waiting ∧
    List.Forall₂ (fun x r => Spec.IsEndpoint r.1.mac x.1 x.2.1 x.2.2.1 x.2.2.2.1 x.2.2.2.2.1 ∧
        r.1.net = 0 ∧ r.1.adr = [] ∧ r.2 = x.2.2.2.2.2.take size) l
      (clientRun size (l.map fun x => .datagram (ipv4 x.1 x.2.1 x.2.2.1 x.2.2.2.1) x.2.2.2.2.1 x.2.2.2.2.2)).1 := by
  induction l with
  | nil => exact ⟨rfl, .nil⟩
  | cons x xs ih =>
    obtain ⟨a, b, c, d, port, octets⟩ := x
    obtain ⟨A, hA, hE, _, hn, _, hadr⟩ := udpToAddress_quad a b c d port (hp (a, b, c, d, port, octets) (by simp))
    have ih' := ih (fun y hy => hp y (by simp [hy]))
    simp only [List.map_cons, clientRun, to4_ipv4, hA]
    exact ⟨ih'.1, .cons ⟨hE, hn, hadr, rfl⟩ ih'.2⟩

example : clientRun 1476 [.datagram (ipv4 10 0 0 7) 47808 [1, 2], .datagram [0xFE, 0x80, 0, 0, 0, 0, 0, 0, 0, 0, 0, 0, 0, 0, 0, 1] 47808 [3]] =
    ([({ mac := [10, 0, 0, 7, 0xBA, 0xC0], macLen := 6 }, [1, 2])], .crashed .indexOutOfRange) := by decide

/-! ## C96 Errors of the socket -/

/-- C96 fails: after the first error of the socket nothing is received any more. -/
theorem C96_fails (size : Nat) (pre rest : List Incoming)
    (hpre : ∀ x ∈ pre, ∃ a b c d port octets, x = .datagram (ipv4 a b c d) port octets) :
    clientRun size (pre ++ .error :: rest) = ((clientRun size pre).1, .returned) := by
  induction pre with
  | nil => rfl
  | cons x xs ih =>
    obtain ⟨a, b, c, d, port, octets, rfl⟩ := hpre x (by simp)
    simp only [List.cons_append, clientRun, to4_ipv4, udpToAddress]
    rw [ih (fun y hy => hpre y (by simp [hy]))]

/-- C96 as long as there is no error: what is handed over for a stream followed by
another is what is handed over for each. -/
theorem C96_partial (size : Nat) (l m : List Incoming)
    (hl : ∀ x ∈ l, ∃ a b c d port octets, x = .datagram (ipv4 a b c d) port octets) :
    clientRun size (l ++ m) = ((clientRun size l).1 ++ (clientRun size m).1, (clientRun size m).2) ∧
    (clientRun size l).1.length = l.length := by
  induction l with
  | nil => exact ⟨rfl, rfl⟩
  | cons x xs ih =>
    obtain ⟨a, b, c, d, port, octets, rfl⟩ := hl x (by simp)
    have ih' := ih (fun y hy => hl y (by simp [hy]))
    simp only [List.cons_append, clientRun, to4_ipv4, udpToAddress]
    rw [ih'.1]
    exact ⟨rfl, by simp [ih'.2]⟩

example : clientRun 1476 [.error, .datagram (ipv4 10 0 0 7) 47808 [1, 2]] = ([], .returned) := by decide

/-- A ComplexACK is delivered whatever the length field of its frame says. -/
theorem deliver_complexAck (src : Address) (pending : UInt8 → Bool) (h : NetHeader) (hok : h.Ok)
    (f : UInt8) (hf : f = 10 ∨ f = 11) (l : UInt16) (invoke service : UInt8) (data : List UInt8) :
    handleMsg src pending ([0x81, f] ++ be16 l ++ (h.octets ++ ([0x30, invoke, service] ++ data))) =
      ([.deliver invoke (.apdu (Spec.complexAck invoke service data))], .ok ()) := by
  obtain ⟨p, hp⟩ := handleMsg_frame src pending 0x81 f l (h.octets ++ ([0x30, invoke, service] ++ data)) hf
  rw [hp]
  have ha := Dec.parses_ack 0x30 invoke service (Or.inl rfl) (lastOr p h.octets) data
  rw [networkMsg_of src pending h.octets ([0x30, invoke, service] ++ data) (receivedHeader h) (header_parses h hok) rfl ha,
    apduEffects_octets _ _ _ _ _ (Or.inr (Or.inl rfl))]
  rfl

/-- A legal network header without message is at most 519 octets long. -/
theorem header_length (h : NetHeader) (hok : h.Ok) : h.octets.length ≤ 519 := by
  obtain ⟨hm, _, hd, hs⟩ := hok
  unfold NetHeader.octets
  rw [hm]
  have hoct : ∀ a : Spec.NetAddr, a.adr.length < 256 → a.octets.length ≤ 258 := by
    intro a ha
    simp [Spec.NetAddr.octets, Spec.bigEndian]
    omega
  cases hdd : h.dest with
  | none =>
    cases hss : h.src with
    | none => simp
    | some s =>
      have := hoct s (hs s hss).2.2
      simp
      omega
  | some dd =>
    have h1 := hoct dd (hd dd hdd).2.2
    cases hss : h.src with
    | none => simp; omega
    | some s =>
      have := hoct s (hs s hss).2.2
      simp
      omega

/-! ## C95 Answers of the announced size -/

/-- C95 fails: with the default buffers an acknowledgement of 1476 octets reaches
the request it answers with its end cut off. -/
theorem C95_fails (pending : UInt8 → Bool) (a b c d : UInt8) (port : Nat) (hport : port < 65536)
    (h : NetHeader) (hok : h.Ok) (f : UInt8) (hf : f = 10 ∨ f = 11) (invoke service : UInt8)
    (data : List UInt8) (hd : data.length = 1473) (more : List Incoming) :
    ∃ src octets rest cut, (clientRun (bufferSize 0)
        (.datagram (ipv4 a b c d) port (Spec.frame f (h.octets ++ Spec.complexAck invoke service data)) :: more)).1 =
          (src, octets) :: rest ∧
      handleMsg src pending octets = ([.deliver invoke (.apdu (Spec.complexAck invoke service cut))], .ok ()) ∧
      cut.length < data.length ∧ cut <+: data := by
  obtain ⟨A, hA, _⟩ := udpToAddress_quad a b c d port hport
  obtain ⟨l, hl⟩ := frame_octets f (h.octets ++ Spec.complexAck invoke service data)
  have hlen := header_length h hok
  have hcut : (Spec.frame f (h.octets ++ Spec.complexAck invoke service data)).take 1476 =
      [0x81, f] ++ be16 l ++ (h.octets ++ ([0x30, invoke, service] ++ data.take (1469 - h.octets.length))) := by
    rw [hl, show Spec.complexAck invoke service data = [0x30, invoke, service] ++ data from rfl]
    have e : ∀ t : List UInt8, [0x81, f] ++ be16 l ++ (h.octets ++ ([0x30, invoke, service] ++ t)) =
        ([0x81, f] ++ be16 l ++ h.octets ++ [0x30, invoke, service]) ++ t := by simp
    have hn : ([0x81, f] ++ be16 l ++ h.octets ++ [0x30, invoke, service]).length = 7 + h.octets.length := by
      simp [be16]
      omega
    rw [e, e, List.take_append, hn, List.take_of_length_le (by omega), show 1476 - (7 + h.octets.length) = 1469 - h.octets.length by omega]
  refine ⟨A, (Spec.frame f (h.octets ++ Spec.complexAck invoke service data)).take 1476, (clientRun 1476 more).1,
    data.take (1469 - h.octets.length), ?_, ?_, ?_, List.take_prefix _ _⟩
  · simp only [clientRun, to4_ipv4, hA, bufferSize, if_true]
  · rw [hcut]
    exact deliver_complexAck A pending h hok f hf l invoke service _
  · rw [List.length_take]
    omega

/-- C95, what holds: a datagram that fits in the buffers reaches the request whole. -/
theorem C95_partial (pending : UInt8 → Bool) (a b c d : UInt8) (port : Nat) (hport : port < 65536)
    (h : NetHeader) (hok : h.Ok) (f : UInt8) (hf : f = 10 ∨ f = 11) (invoke service : UInt8)
    (data : List UInt8) (maxPDU : UInt16) (more : List Incoming)
    (hfit : 4 + h.octets.length + 3 + data.length ≤ bufferSize maxPDU) :
    ∃ src octets rest, (clientRun (bufferSize maxPDU)
        (.datagram (ipv4 a b c d) port (Spec.frame f (h.octets ++ Spec.complexAck invoke service data)) :: more)).1 =
          (src, octets) :: rest ∧
      handleMsg src pending octets = ([.deliver invoke (.apdu (Spec.complexAck invoke service data))], .ok ()) := by
  obtain ⟨A, hA, _⟩ := udpToAddress_quad a b c d port hport
  refine ⟨A, Spec.frame f (h.octets ++ Spec.complexAck invoke service data), (clientRun (bufferSize maxPDU) more).1, ?_, ?_⟩
  · simp only [clientRun, to4_ipv4, hA]
    rw [List.take_of_length_le]
    obtain ⟨l, hl⟩ := frame_octets f (h.octets ++ Spec.complexAck invoke service data)
    rw [hl, show Spec.complexAck invoke service data = [0x30, invoke, service] ++ data from rfl]
    simp [be16]
    omega
  · exact (C72_acks A pending h hok f hf invoke service data).2

example : clientRun 12 [.datagram (ipv4 10 0 0 7) 47808 [0x81, 10, 0, 13, 1, 0, 0x30, 1, 12, 0xAA, 0xBB, 0xCC, 0xDD]] =
    ([({ mac := [10, 0, 0, 7, 0xBA, 0xC0], macLen := 6 }, [0x81, 10, 0, 13, 1, 0, 0x30, 1, 12, 0xAA, 0xBB, 0xCC])], .waiting) ∧
    handleMsg {} (fun _ => true) [0x81, 10, 0, 13, 1, 0, 0x30, 1, 12, 0xAA, 0xBB, 0xCC] =
      ([.deliver 1 (.apdu [0x30, 1, 12, 0xAA, 0xBB, 0xCC])], .ok ()) := by decide

/-! ## C63 Port numbers -/

/-- C63: exactly the port numbers are accepted. -/
theorem C63_ports (port : Int) : validPort port = true ↔ 0 ≤ port ∧ port ≤ 65535 := by
  by_cases hneg : port < 0
  · refine ⟨fun h => ?_, fun h => by omega⟩
    exfalso
    rw [validPort, sprintD, if_pos hneg] at h
    simp [portPattern, matchClasses] at h
  obtain ⟨n, rfl⟩ : ∃ n : Nat, port = n := ⟨port.toNat, by omega⟩
  have hs : sprintD n = decimal n := by rw [sprintD, if_neg hneg]; simp
  rw [validPort, hs]
  have : (0 ≤ (n : Int) ∧ (n : Int) ≤ 65535) ↔ n ≤ 65535 := by omega
  rw [this]
  rcases decimal_cases n with ⟨h, e⟩ | ⟨h1, h2, e⟩ | ⟨h1, h2, e⟩ | ⟨h1, h2, e⟩ | ⟨h1, h2, e⟩ | ⟨h, c0, c1, c2, c3, c4, c5, t, e⟩
  · rw [e]; simp [portPattern, matchClasses]; omega
  · rw [e]; simp [portPattern, matchClasses]; omega
  · rw [e]; simp [portPattern, matchClasses]; omega
  · rw [e]; simp [portPattern, matchClasses]; omega
  · rw [e]; simp [portPattern, matchClasses]; omega
  · rw [e]; simp [portPattern, matchClasses]; omega

example : validPort 65535 = true ∧ validPort 65536 = false ∧ validPort (-1) = false := by
  refine ⟨(C63_ports _).2 (by decide), ?_, ?_⟩ <;> rw [Bool.eq_false_iff, Ne, C63_ports] <;> decide

/-- C63: exactly the prefix lengths an address of that kind can have are accepted. -/
theorem C63_cidr (host : Host) (cidr : Int) : validCIDR host cidr = true ↔
    0 ≤ cidr ∧ ((∃ a b c d, host = .v4 a b c d ∧ cidr ≤ 32) ∨ ∃ o, host = .v6 o ∧ cidr ≤ 128) := by
  cases host with
  | invalid => simp [validCIDR, parseCIDR]
  | v4 a b c d =>
    simp only [validCIDR, parseCIDR]
    split <;> simp_all
  | v6 o =>
    simp only [validCIDR, parseCIDR]
    split <;> simp_all

example : validCIDR (.v4 192 168 15 1) 24 = true ∧ validCIDR (.v4 192 168 15 1) 2000 = false := by decide

end Bac.Props
