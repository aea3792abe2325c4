import Verif.Lemmas.Messages
import Verif.Props.Values
/-!
# Properties C16–C21: frame, network header and application header
-/

namespace Bac.Props

/-! ## C16 -/

/-- C16: for payloads that fit a BACnet/IP frame the datagram handed to the data
link is exactly the frame of annex J.2 – type 0x81, the selected function, the
total number of octets, the payload.
Missing for the full claim: payloads of 65532 octets or more
(see `C16_fails_long`). -/
theorem C16_frame_partial (dest : Address) (bt : Option SetBroadcastType) (data : List UInt8)
    (hlen : data.length + 4 < 65536) :
    sendFrame dest data bt = .ok (Spec.frame (sendFunction dest bt) data) := by
  have h : be16 (UInt16.ofNat (4 + data.length)) = Spec.bigEndian 2 (4 + data.length) := by
    rw [be16_spec]; congr 1; simp; omega
  simp only [sendFrame, Enc.bvlc, Enc.new, Enc.write, Spec.frame, h]
  simp

/-- C16: decoding such a frame gives type, function and total length back and
leaves exactly the payload unread. -/
theorem C16_roundtrip_partial (function : UInt8) (data : List UInt8)
    (hlen : data.length + 4 < 65536) :
    ∃ h d, Dec.bvlc (Dec.new (Spec.frame function data)) = .ok ((h, none), d) ∧
      h.typ = 0x81 ∧ h.function = function ∧
      h.length.toNat = (Spec.frame function data).length ∧
      d.buf = data ∧ d.err = none := by
  have hb : be16 (UInt16.ofNat (4 + data.length)) = Spec.bigEndian 2 (4 + data.length) := by
    rw [be16_spec]; congr 1; simp; omega
  have := Dec.parses_bvlc 0x81 function (UInt16.ofNat (4 + data.length)) none data
  rw [hb] at this
  refine ⟨_, _, this, rfl, rfl, ?_, rfl, rfl⟩
  have hl : (Spec.frame function data).length = 4 + data.length := by
    simp [Spec.frame, length_bigEndian]; omega
  rw [hl]; simp; omega

/-- C16, decoding alone: whatever four or more octets arrive, exactly four are
consumed and the three fields are the transmitted ones. -/
theorem C16_decode (t f : UInt8) (l : UInt16) (payload : List UInt8) :
    ∃ p, Dec.bvlc (Dec.new ([t, f] ++ be16 l ++ payload)) =
      .ok ((⟨t, f, l, []⟩, none), ⟨payload, p, none⟩) :=
  ⟨_, Dec.parses_bvlc t f l none payload⟩

/-- C16 fails for oversized payloads: the frame is sent with a wrong length
field (no error) as soon as the total does not fit 16 bits. -/
theorem C16_fails_long (dest : Address) (data : List UInt8)
    (hlen : data.length + 4 ≥ 65536) :
    ∃ frame h d, sendFrame dest data none = .ok frame ∧
      Dec.bvlc (Dec.new frame) = .ok ((h, none), d) ∧ h.length.toNat ≠ frame.length := by
  refine ⟨[0x81, sendFunction dest none] ++ be16 (UInt16.ofNat (4 + data.length)) ++ data,
    _, _, ?_, Dec.parses_bvlc _ _ _ none data, ?_⟩
  · simp [sendFrame, Enc.bvlc, Enc.new, Enc.write]
  · have := (UInt16.ofNat (4 + data.length)).toNat_lt
    simp only [List.length_append, be16, List.length_cons, List.length_nil]
    omega

example : sendFrame { net := 5, macLen := 6, len := 1 } [1, 2, 3] none
    = .ok [0x81, 0x0A, 0, 7, 1, 2, 3] := by decide
example : ∃ data : List UInt8, data.length + 4 ≥ 65536 :=
  ⟨List.replicate 65532 0, by rw [List.length_replicate]⟩

/-! ## C17 -/

/-- What of an address goes on the wire: network zero means "not present". -/
def wireAddr : Option Address → Option Spec.NetAddr
  | some a => if a.net = 0 then none else some ⟨a.net.toNat, a.adr⟩
  | none => none

/-- The network header a Go `NPDU` value stands for. -/
def wireHeader (n : NPDU) : Spec.NetHeader :=
  { version := n.version, expectingReply := n.expectingReply, priority := n.priority.toNat,
    dest := wireAddr n.destination, hop := n.hopCount, src := wireAddr n.source,
    msg := if n.isNetworkLayerMessage then some ⟨n.networkLayerMessageType, n.vendorId.toNat⟩
           else none }

/-- An address whose length field is the length of its hardware address. -/
def LenOk : Option Address → Prop
  | some a => a.len.toNat = a.adr.length
  | none => True

/-- The header that is expected to be decoded: everything that is on the wire,
the rest zero. -/
def decodedAddr : Option Address → Option Address
  | some a => if a.net = 0 then none else some { net := a.net, len := a.len, adr := a.adr }
  | none => none

/-- See `decodedAddr`. -/
def decodedHeader (n : NPDU) : NPDU :=
  { version := n.version
    destination := decodedAddr n.destination
    source := decodedAddr n.source
    hopCount := if (decodedAddr n.destination).isSome then n.hopCount else 0
    expectingReply := n.expectingReply
    priority := n.priority
    isNetworkLayerMessage := n.isNetworkLayerMessage
    networkLayerMessageType := if n.isNetworkLayerMessage then n.networkLayerMessageType else 0
    vendorId := if n.isNetworkLayerMessage ∧ n.networkLayerMessageType.toNat ≥ 128 then n.vendorId
                else 0 }

theorem addr_octets (a : Address) (h : a.len.toNat = a.adr.length) :
    Spec.NetAddr.octets ⟨a.net.toNat, a.adr⟩ = be16 a.net ++ ([a.len] ++ a.adr) := by
  simp only [Spec.NetAddr.octets, be16_spec, ← h, List.append_assoc]
  rw [u8_ofNat_toNat]

/-- Facts about the control octet of a header with a legal priority. -/
theorem npduMeta_facts (n : NPDU) (hp : n.priority.toNat < 4) :
    npduMeta n = UInt8.ofNat (wireHeader n).control ∧
    checkMask (npduMeta n) 0x80 = n.isNetworkLayerMessage ∧
    checkMask (npduMeta n) 0x20 = (wireAddr n.destination).isSome ∧
    checkMask (npduMeta n) 0x08 = (wireAddr n.source).isSome ∧
    checkMask (npduMeta n) 0x04 = n.expectingReply ∧
    npduMeta n &&& 3 = n.priority := by
  have key := npdu_meta_facts n.isNetworkLayerMessage n.expectingReply
    (wireAddr n.destination).isSome (wireAddr n.source).isSome ⟨n.priority.toNat, hp⟩
  simp only [u8_ofNat_toNat] at key
  have hm : npduMeta n = (if (wireAddr n.source).isSome then
      setInfoMask (if (wireAddr n.destination).isSome then
        setInfoMask (setInfoMask (setInfoMask 0 n.isNetworkLayerMessage 0x80) n.expectingReply 0x04
          ||| n.priority) true 0x20 else setInfoMask (setInfoMask 0 n.isNetworkLayerMessage 0x80)
          n.expectingReply 0x04 ||| n.priority) true 0x08
      else if (wireAddr n.destination).isSome then
        setInfoMask (setInfoMask (setInfoMask 0 n.isNetworkLayerMessage 0x80) n.expectingReply 0x04
          ||| n.priority) true 0x20 else setInfoMask (setInfoMask 0 n.isNetworkLayerMessage 0x80)
          n.expectingReply 0x04 ||| n.priority) := by
    unfold npduMeta wireAddr
    cases n.destination with
    | none =>
      cases n.source with
      | none => simp
      | some b => by_cases hb : b.net = 0 <;> simp [hb]
    | some a =>
      cases n.source with
      | none => by_cases ha : a.net = 0 <;> simp [ha]
      | some b => by_cases ha : a.net = 0 <;> by_cases hb : b.net = 0 <;> simp [ha, hb]
  rw [hm]
  have hc : (wireHeader n).control = (if n.isNetworkLayerMessage then 128 else 0)
      + (if (wireAddr n.destination).isSome then 32 else 0)
      + (if (wireAddr n.source).isSome then 8 else 0)
      + (if n.expectingReply then 4 else 0) + n.priority.toNat := by
    unfold Spec.NetHeader.control wireHeader
    cases n.isNetworkLayerMessage <;> rfl
  rw [hc]
  exact key

/-- C17, layout: the octets written are those of clause 6.2 for the header. -/
theorem C17_layout (n : NPDU) (hp : n.priority.toNat < 4)
    (hd : LenOk n.destination) (hs : LenOk n.source) :
    Enc.new.npdu n = .ok ⟨(wireHeader n).octets, none⟩ := by
  obtain ⟨f0, f1, f2, f3, _, _⟩ := npduMeta_facts n hp
  have haddr : ∀ (e : Enc) (o : Option Address), LenOk o →
      e.optNpduAddress (wireAddr o).isSome o =
        .ok (e.write (match wireAddr o with | some a => a.octets | none => [])) := by
    intro e o ho
    cases o with
    | none => simp [Enc.optNpduAddress, wireAddr]
    | some a =>
      by_cases ha : a.net = 0
      · simp [Enc.optNpduAddress, wireAddr, ha]
      · simp only [Enc.optNpduAddress, wireAddr, ha, if_false, Option.isSome_some, if_true,
          Enc.npduAddress, Enc.write_write, addr_octets a ho, List.append_assoc]
  unfold Enc.npdu
  simp only [f1, f2, f3, haddr _ _ hd, haddr _ _ hs, Outcome.ok_bind]
  rw [f0]
  have hnew : ∀ bs, Enc.new.write bs = ⟨bs, none⟩ := fun bs => by simp [Enc.new, Enc.write]
  have hge : n.networkLayerMessageType ≥ 0x80 ↔ n.networkLayerMessageType.toNat ≥ 128 := by
    rw [ge_iff_le, UInt8.le_iff_toNat_le]; rfl
  unfold Spec.NetHeader.octets
  generalize UInt8.ofNat (wireHeader n).control = c
  cases hnl : n.isNetworkLayerMessage
  · cases hds : (wireAddr n.destination).isSome <;>
      simp only [hds, Enc.write_write, if_true, if_false, Bool.false_eq_true] <;> rw [hnew] <;>
      simp [wireHeader, hnl, hds] <;> rfl
  · by_cases hv : n.networkLayerMessageType ≥ 0x80
    · have hv' := hge.mp hv
      cases hds : (wireAddr n.destination).isSome <;>
        simp only [hds, hv, Enc.write_write, if_true, if_false, Bool.false_eq_true] <;> rw [hnew] <;>
        simp [wireHeader, hnl, hds, hv', be16_spec] <;> rfl
    · have hv' : ¬ n.networkLayerMessageType.toNat ≥ 128 := fun h => hv (hge.mpr h)
      cases hds : (wireAddr n.destination).isSome <;>
        simp only [hds, hv, Enc.write_write, if_true, if_false, Bool.false_eq_true] <;> rw [hnew] <;>
        simp [wireHeader, hnl, hds, hv'] <;> rfl

/-- C17, round trip: every header written is read back as the same header
(fields not transmitted are zero), leaving what follows unread.
Missing for the full claim: network messages of type 0x80 (`C17_fails_vendor`),
and types 0x13 and 0x01, for which the decoder reads the payload into the header
(`C17_fails_networkIs`). -/
theorem C17_roundtrip_partial (n : NPDU) (hp : n.priority.toNat < 4)
    (hd : LenOk n.destination) (hs : LenOk n.source)
    (ht : n.isNetworkLayerMessage = true →
      n.networkLayerMessageType ≠ 0x80 ∧ n.networkLayerMessageType ≠ 0x13 ∧
      n.networkLayerMessageType ≠ 0x01) :
    ∃ e, Enc.new.npdu n = .ok e ∧ e.err = none ∧
      Parses Dec.npdu e.buf (decodedHeader n, none, none) := by
  refine ⟨_, C17_layout n hp hd hs, rfl, ?_⟩
  obtain ⟨f0, f1, f2, f3, f4, f5⟩ := npduMeta_facts n hp
  have haddr : ∀ (o : Option Address), LenOk o →
      Parses (Dec.optAddress (wireAddr o).isSome)
        (match wireAddr o with | some a => a.octets | none => []) (decodedAddr o) := by
    intro o ho
    cases o with
    | none => exact Parses.pure _
    | some a =>
      by_cases ha : a.net = 0
      · simp only [wireAddr, decodedAddr, ha, if_true]
        exact Parses.pure _
      · simp only [wireAddr, decodedAddr, ha, if_false]
        show Parses (do let a ← Dec.address; pure (some a)) _ _
        rw [addr_octets a ho]
        exact Parses.bind' (Dec.parses_address _ _ _ ho) (Parses.pure _)
  have hhop : Parses (Dec.optU8 (wireAddr n.destination).isSome)
      (if (wireAddr n.destination).isSome then [n.hopCount] else [])
      (if (wireAddr n.destination).isSome then n.hopCount else 0) := by
    cases (wireAddr n.destination).isSome
    · exact Parses.pure _
    · exact Dec.parses_u8 _
  have hsome : (decodedAddr n.destination).isSome = (wireAddr n.destination).isSome := by
    cases n.destination with
    | none => rfl
    | some a => by_cases ha : a.net = 0 <;> simp [decodedAddr, wireAddr, ha]
  have hge : n.networkLayerMessageType > 0x80 ↔
      (n.networkLayerMessageType.toNat ≥ 128 ∧ n.networkLayerMessageType ≠ 0x80) := by
    rw [gt_iff_lt, UInt8.lt_iff_toNat_lt, ← UInt8.toNat_inj.ne]
    show 128 < _ ↔ _ ∧ _ ≠ 128
    omega
  have hsplit : (wireHeader n).octets = [n.version] ++ ([npduMeta n] ++
      ((match wireAddr n.destination with | some a => a.octets | none => []) ++
      ((match wireAddr n.source with | some a => a.octets | none => []) ++
      ((if (wireAddr n.destination).isSome then [n.hopCount] else []) ++
      (match (wireHeader n).msg with
        | some m => [m.type] ++ (if m.type.toNat ≥ 128 then Spec.bigEndian 2 m.vendor else [])
        | none => []))))) := by
    rw [f0]; simp only [Spec.NetHeader.octets, wireHeader, List.append_assoc]; rfl
  rw [hsplit]
  unfold Dec.npdu
  refine Parses.bind (Dec.parses_u8 _) (Parses.bind (Dec.parses_u8 _) ?_)
  rw [f1, f2, f3, f4, f5]
  refine Parses.bind (haddr _ hd) (Parses.bind (haddr _ hs) (Parses.bind hhop ?_))
  cases hnl : n.isNetworkLayerMessage
  · simp only [wireHeader, hnl, Bool.false_eq_true, if_false]
    refine Parses.bind' Dec.parses_error ?_
    have : decodedHeader n = { version := n.version, destination := decodedAddr n.destination, source := decodedAddr n.source, isNetworkLayerMessage := false, expectingReply := n.expectingReply, priority := n.priority, hopCount := if (wireAddr n.destination).isSome then n.hopCount else 0 } := by
      simp [decodedHeader, hnl, hsome]
    rw [this]
    exact Parses.pure _
  · simp only [wireHeader, hnl, if_true]
    obtain ⟨h80, h13, h01⟩ := ht hnl
    refine Parses.bind (Dec.parses_u8 _) ?_
    have hv : Parses (Dec.optU16 (decide (n.networkLayerMessageType > 0x80)))
        (if n.networkLayerMessageType.toNat ≥ 128 then Spec.bigEndian 2 n.vendorId.toNat else [])
        (if n.networkLayerMessageType.toNat ≥ 128 then n.vendorId else 0) := by
      by_cases h : n.networkLayerMessageType.toNat ≥ 128
      · rw [if_pos h, if_pos h, decide_eq_true (hge.mpr ⟨h, h80⟩), ← be16_spec]
        exact Dec.parses_be16 _
      · rw [if_neg h, if_neg h, decide_eq_false (fun h' => h (hge.mp h').1)]
        exact Parses.pure _
    refine Parses.bind' hv ?_
    simp only [h13, h01, if_false]
    refine Parses.bind' Dec.parses_error ?_
    have : decodedHeader n = { version := n.version, destination := decodedAddr n.destination, source := decodedAddr n.source, isNetworkLayerMessage := true, networkLayerMessageType := n.networkLayerMessageType, vendorId := if n.networkLayerMessageType.toNat ≥ 128 then n.vendorId else 0, expectingReply := n.expectingReply, priority := n.priority, hopCount := if (wireAddr n.destination).isSome then n.hopCount else 0 } := by
      simp [decodedHeader, hnl, hsome]
    rw [this]
    exact Parses.pure _

/-- C17, headers of requests: nothing is lost when the header carries only what
the wire can carry. -/
theorem C17_exact (n : NPDU) (hp : n.priority.toNat < 4) (hnl : n.isNetworkLayerMessage = false)
    (dst : Address) (hdst : n.destination = some dst) (hnet : dst.net ≠ 0)
    (hlen : dst.len.toNat = dst.adr.length) (hmac : dst.mac = []) (hmacLen : dst.macLen = 0)
    (hsrc : n.source = none) (htype : n.networkLayerMessageType = 0) (hvendor : n.vendorId = 0) :
    ∃ e, Enc.new.npdu n = .ok e ∧ e.err = none ∧ Parses Dec.npdu e.buf (n, none, none) := by
  have := C17_roundtrip_partial n hp (by rw [hdst]; exact hlen) (by rw [hsrc]; trivial)
    (by rw [hnl]; intro h; cases h)
  have hn : decodedHeader n = n := by
    rcases n with ⟨v, dest, src, vid, nl, ty, er, pr, hop⟩
    rcases dst with ⟨net, len, ml, mac, adr⟩
    simp only at hdst hsrc hnl htype hvendor hmac hmacLen hnet
    subst hdst hsrc hnl htype hvendor hmac hmacLen
    simp [decodedHeader, decodedAddr, hnet]
  rwa [hn] at this

/-- C17 fails for network message type 0x80: a vendor id is written but not read
back, so two octets of header are left as payload. -/
theorem C17_fails_vendor (vendor : UInt16) (rest : List UInt8) :
    let n : NPDU := { version := 1, isNetworkLayerMessage := true,
                      networkLayerMessageType := 0x80, vendorId := vendor }
    ∃ e h d, Enc.new.npdu n = .ok e ∧ e.err = none ∧
      Dec.npdu (Dec.new (e.buf ++ rest)) = .ok ((h, none, none), d) ∧
      h.vendorId = 0 ∧ d.buf = be16 vendor ++ rest := by
  refine ⟨⟨[1, 0x80, 0x80] ++ be16 vendor, none⟩,
    { version := 1, isNetworkLayerMessage := true, networkLayerMessageType := 0x80 },
    ⟨be16 vendor ++ rest, some 0x80, none⟩, ?_, rfl, ?_, rfl, rfl⟩
  · rw [C17_layout _ (by show (0 : UInt8).toNat < 4; decide) (by trivial) (by trivial)]
    simp [Spec.NetHeader.octets, wireHeader, wireAddr, Spec.NetHeader.control, be16_spec]
  have h : Parses Dec.npdu ([1] ++ ([0x80] ++ [0x80]))
      ({ version := 1, isNetworkLayerMessage := true, networkLayerMessageType := 0x80 }, none, none) := by
    unfold Dec.npdu
    refine Parses.bind (Dec.parses_u8 1) (Parses.bind (Dec.parses_u8 0x80) ?_)
    have c20 : checkMask 0x80 0x20 = false := by decide
    have c08 : checkMask 0x80 0x08 = false := by decide
    have c04 : checkMask 0x80 0x04 = false := by decide
    have c80 : checkMask 0x80 0x80 = true := by decide
    rw [c20, c08, c04, c80]
    refine Parses.bind0 (Parses.pure _) (Parses.bind0 (Parses.pure _) (Parses.bind0 (Parses.pure _) ?_))
    rw [if_pos rfl]
    refine Parses.bind' (Dec.parses_u8 0x80) ?_
    refine Parses.bind0 (Parses.pure _) ?_
    dsimp only
    rw [if_neg (by decide), if_neg (by decide)]
    exact Parses.bind0 Dec.parses_error (Parses.pure _)
  have := h none (be16 vendor ++ rest)
  rw [← List.append_assoc] at this
  exact this

/-- C17 fails for Network-Number-Is: the payload of the message is consumed and
replaces the source address. -/
theorem C17_fails_networkIs :
    let n : NPDU := { version := 1, isNetworkLayerMessage := true, networkLayerMessageType := 0x13,
                      source := some { net := 7, len := 1, adr := [9] } }
    ∃ e h d, Enc.new.npdu n = .ok e ∧ e.err = none ∧
      Dec.npdu (Dec.new (e.buf ++ [0, 5, 1])) = .ok ((h, none, none), d) ∧
      h.source = some { net := 5 } ∧ d.buf = [1] := by
  refine ⟨_, _, _, rfl, rfl, rfl, ?_, ?_⟩ <;> decide

example : Enc.new.npdu { version := 1, expectingReply := true, priority := 2, hopCount := 255,
                         destination := some { net := 300, len := 1, adr := [7], mac := [10, 0, 0, 1, 0xBA, 0xC0] } }
    = .ok ⟨[1, 0x26, 1, 44, 1, 7, 255], none⟩ := by decide

/-! ## C18 -/

/-- Number of octets of a header without network message, from its fields. -/
def headerLength (n : NPDU) : Nat :=
  2 + (match n.destination with | some a => 3 + a.adr.length + 1 | none => 0)
    + (match n.source with | some a => 3 + a.adr.length | none => 0)

/-- C18: decoding a network header returns for every input; and when it reports
success for a message that is not a network-layer message, exactly the header was
consumed: the payload is untouched. -/
theorem C18_total (b : List UInt8) :
    ∃ n nets err d, Dec.npdu (Dec.new b) = .ok ((n, nets, err), d) ∧
      (err = none → n.isNetworkLayerMessage = false →
        ∃ hdr, b = hdr ++ d.buf ∧ hdr.length = headerLength n) := by
  obtain ⟨⟨n, nets, err⟩, d, h⟩ := Dec.total_npdu (Dec.new b)
  refine ⟨n, nets, err, d, h, ?_⟩
  intro he hnl
  subst he
  unfold Dec.npdu at h
  obtain ⟨v, d1, h1, h⟩ := D.bind_inv h
  obtain ⟨m, d2, h2, h⟩ := D.bind_inv h
  obtain ⟨dst, d3, h3, h⟩ := D.bind_inv h
  obtain ⟨src, d4, h4, h⟩ := D.bind_inv h
  obtain ⟨hop, d5, h5, h⟩ := D.bind_inv h
  by_cases hm : checkMask m 0x80 = true
  · exfalso
    rw [if_pos hm] at h
    obtain ⟨t, d6, h6, h⟩ := D.bind_inv h
    obtain ⟨vd, d7, h7, h⟩ := D.bind_inv h
    dsimp only at h
    split at h
    · obtain ⟨x, d8, h8, h⟩ := D.bind_inv h
      obtain ⟨y, d9, h9, h⟩ := D.bind_inv h
      cases h; rw [hm] at hnl; cases hnl
    · split at h
      · obtain ⟨x, d8, h8, h⟩ := D.bind_inv h
        obtain ⟨x', d8', h8', h⟩ := D.bind_inv h
        obtain ⟨y, d9, h9, h⟩ := D.bind_inv h
        cases h; rw [hm] at hnl; cases hnl
      · obtain ⟨y, d9, h9, h⟩ := D.bind_inv h
        cases h; rw [hm] at hnl; cases hnl
  · rw [if_neg hm] at h
    obtain ⟨y, d6, h6, h⟩ := D.bind_inv h
    have hd6 : d6 = d5 ∧ y = d5.err := by cases h6; exact ⟨rfl, rfl⟩
    obtain ⟨rfl, rfl⟩ := hd6
    have hfin : n = { version := v, destination := dst, source := src, isNetworkLayerMessage := checkMask m 0x80, expectingReply := checkMask m 0x04, priority := m &&& 3, hopCount := hop } ∧ d = d6 ∧ d6.err = none := by
      have h' := Outcome.ok.inj h
      simp only [Prod.mk.injEq] at h'
      exact ⟨h'.1.1.symm, h'.2.symm, h'.1.2.2⟩
    obtain ⟨rfl, rfl, he⟩ := hfin
    obtain ⟨e4, b5, q5, p5⟩ := Dec.took_hop _ _ _ _ h5 he
    obtain ⟨e3, b4, q4, p4⟩ := Dec.took_optAddress _ _ _ _ h4 e4
    obtain ⟨e2, b3, q3, p3⟩ := Dec.took_optAddress _ _ _ _ h3 e3
    obtain ⟨e1, b2, q2, p2⟩ := Dec.took_u8 _ _ _ h2 e2
    obtain ⟨e0, b1, q1, p1⟩ := Dec.took_u8 _ _ _ h1 e1
    refine ⟨b1 ++ b2 ++ b3 ++ b4 ++ b5, ?_, ?_⟩
    · have : b = (Dec.new b).buf := rfl
      rw [this, q1, q2, q3, q4, q5]; simp
    · subst p1 p2
      unfold headerLength
      have hbe : ∀ x : UInt16, (be16 x).length = 2 := fun _ => rfl
      cases c2 : checkMask m 0x20 <;> cases c3 : checkMask m 0x08 <;>
        simp only [c2, c3, forall_const, Bool.false_eq_true, Bool.true_eq_false, false_implies,
          and_true, true_and] at p3 p4 p5
      · obtain ⟨rfl, rfl⟩ := p3; obtain ⟨rfl, rfl⟩ := p4; obtain ⟨rfl, rfl⟩ := p5
        rfl
      · obtain ⟨rfl, rfl⟩ := p3; obtain ⟨a, rfl, rfl, ha⟩ := p4; obtain ⟨rfl, rfl⟩ := p5
        simp [hbe]; omega
      · obtain ⟨a, rfl, rfl, ha⟩ := p3; obtain ⟨rfl, rfl⟩ := p4; subst p5
        simp [hbe]; omega
      · obtain ⟨a, rfl, rfl, ha⟩ := p3; obtain ⟨a', rfl, rfl, ha'⟩ := p4; subst p5
        simp [hbe]; omega

example : ∃ d, Dec.npdu (Dec.new [1, 0x28, 0, 5, 1, 9, 0, 6, 0, 200, 0x30, 1, 2]) =
    .ok (({ version := 1, destination := some { net := 5, len := 1, adr := [9] },
            source := some { net := 6, len := 0, adr := [] }, hopCount := 200 }, none, none), d) ∧
    d.buf = [0x30, 1, 2] := ⟨_, rfl, rfl⟩

/-! ## C19 -/

/-- An I-Am-Router-To-Network message (clause 6.4.2) listing the given networks. -/
def iAmRouter (nets : List UInt16) : List UInt8 := [1, 0x80, 0x01] ++ nets.flatMap be16

/-- C19 fails for a single network (the usual case): decoding reports an error. -/
theorem C19_fails_one : ∃ n nets d, Dec.npdu (Dec.new (iAmRouter [5]))
    = .ok ((n, nets, some .eof), d) := ⟨_, _, _, rfl⟩

/-- C19 fails for three networks: the third is silently dropped. -/
theorem C19_fails_three : ∃ n d, Dec.npdu (Dec.new (iAmRouter [5, 6, 7]))
    = .ok ((n, some [{ net := 5 }, { net := 6 }], none), d) := ⟨_, _, rfl⟩

theorem u16Into_be16 (old x : UInt16) : Parses (Dec.u16Into old) (be16 x) x := by
  unfold Dec.u16Into
  refine Parses.bind' (Dec.parses_readN (be16 x)) ?_
  show Parses (pure (rd16 _ _)) _ _
  rw [rd16_be]
  exact Parses.pure _

/-- How every I-Am-Router-To-Network message with at least two networks is
decoded: the first two networks (once, if they are equal), the rest unread. -/
theorem C19_two_or_more (a b : UInt16) (more : List UInt16) :
    ∃ n d, Dec.npdu (Dec.new (iAmRouter (a :: b :: more))) =
      .ok ((n, some (if a = b then [{ net := a }] else [{ net := a }, { net := b }]), none), d) ∧
      d.buf = more.flatMap be16 := by
  have h : ∃ n, Parses Dec.npdu ([1] ++ ([0x80] ++ ([0x01] ++ (be16 a ++ be16 b))))
      (n, some (if a ≠ b then [{ net := a }, { net := b }] else [{ net := a }]), none) := by
    unfold Dec.npdu
    refine ⟨{ version := 1, source := some { net := b }, isNetworkLayerMessage := true, networkLayerMessageType := 1 }, ?_⟩
    refine Parses.bind (Dec.parses_u8 1) (Parses.bind (Dec.parses_u8 0x80) ?_)
    have c03 : (0x80 : UInt8) &&& 3 = 0 := by decide
    have c20 : checkMask 0x80 0x20 = false := by decide
    have c08 : checkMask 0x80 0x08 = false := by decide
    have c04 : checkMask 0x80 0x04 = false := by decide
    have c80 : checkMask 0x80 0x80 = true := by decide
    rw [c20, c08, c04, c80, c03]
    refine Parses.bind0 (Parses.pure _) (Parses.bind0 (Parses.pure _)
      (Parses.bind0 (Parses.pure _) ?_))
    rw [if_pos rfl]
    refine Parses.bind (Dec.parses_u8 1) (Parses.bind0 (Parses.pure _) ?_)
    dsimp only
    rw [if_neg (by decide), if_pos rfl]
    exact Parses.bind (Dec.parses_be16 a) (Parses.bind' (u16Into_be16 a b)
      (Parses.bind0 Dec.parses_error (Parses.pure _)))
  obtain ⟨n, h⟩ := h
  have := h none (more.flatMap be16)
  have e : (iAmRouter (a :: b :: more)) =
      [1] ++ ([0x80] ++ ([0x01] ++ (be16 a ++ be16 b))) ++ more.flatMap be16 := by
    simp [iAmRouter, be16]
  have e2 : (if a ≠ b then [({ net := a } : Address), { net := b }] else [{ net := a }]) =
      if a = b then [{ net := a }] else [{ net := a }, { net := b }] := by
    by_cases hab : a = b <;> simp [hab]
  rw [← e, e2] at this
  exact ⟨n, _, this, rfl⟩

/-- C19: exactly two networks are decoded to the set of networks sent.
Missing for the full claim: one network, and more than two (see `C19_fails_one`,
`C19_fails_three`, and `C19_two_or_more` for what happens in general). -/
theorem C19_two_partial (a b : UInt16) :
    ∃ n l d, Dec.npdu (Dec.new (iAmRouter [a, b])) = .ok ((n, some l, none), d) ∧
      (∀ x : UInt16, x ∈ l.map Address.net ↔ x ∈ [a, b]) ∧ (l.map Address.net).Nodup := by
  obtain ⟨n, d, h, _⟩ := C19_two_or_more a b []
  refine ⟨n, _, d, h, ?_, ?_⟩
  · intro x; by_cases hab : a = b <;> simp [hab]
  · by_cases hab : a = b <;> simp [hab]

example : iAmRouter [5, 0x1234] = [1, 0x80, 1, 0, 5, 0x12, 0x34] := by decide

/-! ## C20 -/

theorem apduMeta_facts (a : APDU) (t : Fin 16) (ht : a.dataType = UInt8.ofNat (t.val * 16)) :
    apduMeta a = UInt8.ofNat (t.val * 16 + (if a.segmentedMessage then 8 else 0)
      + (if a.moreFollows then 4 else 0) + (if a.segmentedResponseAccepted then 2 else 0)) ∧
    checkMask (apduMeta a) 0x08 = a.segmentedMessage ∧
    checkMask (apduMeta a) 0x04 = a.moreFollows ∧
    checkMask (apduMeta a) 0x02 = a.segmentedResponseAccepted ∧
    apduMeta a &&& 0xF0 = a.dataType := by
  have := apdu_meta_facts a.segmentedMessage a.moreFollows a.segmentedResponseAccepted t
  simp only [← ht] at this
  exact this

theorem bytes_run (p : Option UInt8) (payload : List UInt8) :
    ∃ p', Dec.bytes payload.length ⟨payload, p, none⟩ = .ok (payload, ⟨[], p', none⟩) := by
  have := Dec.parses_bytes payload p []
  rw [List.append_nil] at this
  exact ⟨_, this⟩

theorem rest_run (p : Option UInt8) (payload : List UInt8) :
    ∃ p', Dec.restBytes ⟨payload, p, none⟩ = .ok (payload, ⟨[], p', none⟩) := by
  unfold Dec.restBytes
  cases payload with
  | nil => exact ⟨_, rfl⟩
  | cons x xs =>
    obtain ⟨p', hp⟩ := bytes_run p (x :: xs)
    refine ⟨p', ?_⟩
    rw [D.bind_apply]
    show (if (x :: xs).length > 0 then Dec.bytes (x :: xs).length else pure []) _ = _
    rw [if_pos (by simp)]
    exact hp

/-- The octets of a confirmed-request header. -/
theorem C20_confirmed_layout (a : APDU) (ht : a.dataType = 0x00) :
    Enc.new.apdu a = (⟨Spec.confirmedHeader a.segmentedMessage a.moreFollows
      a.segmentedResponseAccepted (encodeMaxSegsMaxApdu a.maxSegs a.maxApdu) a.invokeId a.sequence
      a.windowNumber a.service, none⟩, none) := by
  obtain ⟨h0, _⟩ := apduMeta_facts a 0 ht
  have n1 : ¬ a.dataType = 0x30 := by rw [ht]; decide
  have n2 : ¬ a.dataType = 0x10 := by rw [ht]; decide
  unfold Enc.apdu Enc.apduConfirmed Spec.confirmedHeader
  simp only [if_neg n1, if_neg n2, if_pos ht, h0]
  cases a.segmentedMessage <;> simp [Enc.maxSegsMaxApdu, Enc.new, Enc.write]

/-- C20, confirmed requests: the header is decoded back to the same fields and the
service payload is delivered whole.  (Segment and APDU sizes outside the
advertised ones are C15.) -/
theorem C20_confirmed (a : APDU) (payload : List UInt8) (ht : a.dataType = 0x00)
    (k : Nat) (hk : k ≤ 6) (hsegs : a.maxSegs = 2 ^ k) (hapdu : a.maxApdu ∈ standardApdu)
    (hseg : a.segmentedMessage = false → a.sequence = 0 ∧ a.windowNumber = 0) :
    ∃ e a' d, Enc.new.apdu a = (e, none) ∧ e.err = none ∧
      Dec.apdu (Dec.new (e.buf ++ payload)) = .ok ((a', none), d) ∧ d.buf = [] ∧
      a' = { dataType := a.dataType, segmentedMessage := a.segmentedMessage, moreFollows := a.moreFollows, segmentedResponseAccepted := a.segmentedResponseAccepted, maxSegs := a.maxSegs, maxApdu := a.maxApdu, invokeId := a.invokeId, sequence := a.sequence, windowNumber := a.windowNumber, service := a.service, rawData := payload } := by
  obtain ⟨h0, h1, h2, h3, h4⟩ := apduMeta_facts a 0 ht
  obtain ⟨s1, s2⟩ := C15_exact_survive k hk a.maxApdu hapdu
  rw [← hsegs] at s1 s2
  have hopt : ∀ x : UInt8, (a.segmentedMessage = false → x = 0) →
      Parses (Dec.optU8 a.segmentedMessage) (if a.segmentedMessage then [x] else []) x := by
    intro x hx
    cases hs : a.segmentedMessage
    · rw [hx hs]; exact Parses.pure _
    · exact Dec.parses_u8 _
  have hb : ∀ rest : List UInt8, Spec.confirmedHeader a.segmentedMessage a.moreFollows
      a.segmentedResponseAccepted (encodeMaxSegsMaxApdu a.maxSegs a.maxApdu) a.invokeId a.sequence
      a.windowNumber a.service ++ rest = ([apduMeta a] ++ ([encodeMaxSegsMaxApdu a.maxSegs a.maxApdu]
        ++ ([a.invokeId] ++ ((if a.segmentedMessage then [a.sequence] else []) ++
        ((if a.segmentedMessage then [a.windowNumber] else []) ++ ([a.service] ++ rest)))))) := by
    intro rest
    rw [h0]
    unfold Spec.confirmedHeader
    cases a.segmentedMessage <;> simp
  have n1 : ¬ (a.dataType = 0x30 ∨ a.dataType = 0x20) := by rw [ht]; decide
  have n2 : ¬ a.dataType = 0x10 := by rw [ht]; decide
  refine ⟨_, _, ?_, C20_confirmed_layout a ht, rfl, ?_, ?_, rfl⟩
  rotate_left
  · unfold Dec.apdu Dec.apduConfirmed Dec.new
    simp only [hb]
    rw [D.bind_apply, Dec.parses_u8 _ none _]
    simp only [Outcome.bind, h1, h2, h3, h4, if_neg n1, if_neg n2, if_pos ht]
    rw [D.bind_apply, Dec.parses_u8]
    simp only [Outcome.bind]
    rw [D.bind_apply, Dec.parses_u8]
    simp only [Outcome.bind]
    rw [D.bind_apply, hopt a.sequence (fun h => (hseg h).1)]
    simp only [Outcome.bind]
    rw [D.bind_apply, hopt a.windowNumber (fun h => (hseg h).2)]
    simp only [Outcome.bind]
    rw [D.bind_apply, Dec.parses_u8]
    simp only [Outcome.bind]
    rw [D.bind_apply, (rest_run _ payload).choose_spec]
    simp only [Outcome.bind]
    rw [D.bind_apply]
    simp only [Dec.error, Outcome.bind, s1, s2]
    rfl
  · rfl

example : Enc.new.apdu { dataType := 0, maxSegs := 1, maxApdu := 1476, invokeId := 7, service := 12 }
    = (⟨[0x00, 0x05, 7, 12], none⟩, none) := by decide

/-- C20, unconfirmed requests. -/
theorem C20_unconfirmed (a : APDU) (payload : List UInt8) (ht : a.dataType = 0x10) :
    ∃ e a' d, Enc.new.apdu a = (e, none) ∧ e.err = none ∧
      Dec.apdu (Dec.new (e.buf ++ payload)) = .ok ((a', none), d) ∧ d.buf = [] ∧
      a' = { dataType := a.dataType, segmentedMessage := a.segmentedMessage, moreFollows := a.moreFollows, segmentedResponseAccepted := a.segmentedResponseAccepted, unconfirmedService := a.unconfirmedService, rawData := payload } := by
  obtain ⟨h0, h1, h2, h3, h4⟩ := apduMeta_facts a 1 ht
  have n1 : ¬ (a.dataType = 0x30 ∨ a.dataType = 0x20) := by rw [ht]; decide
  have n2 : ¬ a.dataType = 0x30 := by rw [ht]; decide
  have he : Enc.new.apdu a = (⟨[apduMeta a] ++ [a.unconfirmedService], none⟩, none) := by
    simp [Enc.apdu, n2, ht, Enc.new, Enc.write]
  refine ⟨_, _, ?_, he, rfl, ?_, ?_, rfl⟩
  rotate_left
  · unfold Dec.apdu Dec.apduUnconfirmed Dec.new
    simp only [List.append_assoc]
    rw [D.bind_apply, Dec.parses_u8 _ none _]
    simp only [Outcome.bind, h1, h2, h3, h4, if_neg n1, if_pos ht]
    rw [D.bind_apply, Dec.parses_u8]
    simp only [Outcome.bind]
    rw [D.bind_apply]
    simp only [Dec.len, Outcome.bind]
    rw [D.bind_apply, (bytes_run _ payload).choose_spec]
    simp only [Outcome.bind]
    rw [D.bind_apply]
    simp only [Dec.error, Outcome.bind]
    rfl
  · rfl

/-- C20, complex acknowledgements that are not segments: the header is decoded
back and exactly the service payload is left unread. -/
theorem C20_complexAck_partial (a : APDU) (payload : List UInt8) (ht : a.dataType = 0x30)
    (hseg : a.segmentedMessage = false) :
    ∃ e a' d, Enc.new.apdu a = (e, none) ∧ e.err = none ∧
      Dec.apdu (Dec.new (e.buf ++ payload)) = .ok ((a', none), d) ∧ d.buf = payload ∧
      a' = { dataType := a.dataType, moreFollows := a.moreFollows, segmentedResponseAccepted := a.segmentedResponseAccepted, invokeId := a.invokeId, service := a.service } := by
  obtain ⟨h0, h1, h2, h3, h4⟩ := apduMeta_facts a 3 ht
  have n1 : (a.dataType = 0x30 ∨ a.dataType = 0x20) := Or.inl ht
  have he : Enc.new.apdu a = (⟨[apduMeta a] ++ ([a.invokeId] ++ [a.service]), none⟩, none) := by
    simp [Enc.apdu, ht, Enc.new, Enc.write]
  refine ⟨_, _, ?_, he, rfl, ?_, ?_, rfl⟩
  rotate_left
  · unfold Dec.apdu Dec.apduAck Dec.new
    simp only [List.append_assoc]
    rw [D.bind_apply, Dec.parses_u8 _ none _]
    simp only [Outcome.bind, h1, h2, h3, h4, if_pos n1, hseg]
    rw [D.bind_apply, Dec.parses_u8]
    simp only [Outcome.bind]
    rw [D.bind_apply, Dec.parses_u8]
    simp only [Outcome.bind]
    rw [D.bind_apply]
    simp only [Dec.error, Outcome.bind]
    rfl
  · rfl

/-- C20 fails for segments of a complex acknowledgement: sequence number and
window size are neither written nor read, so a standard segment is decoded with
its sequence number as service choice. -/
theorem C20_fails_segmented (invoke seqNo window service : UInt8) (payload : List UInt8) :
    ∃ a d, Dec.apdu (Dec.new ([0x38, invoke, seqNo, window, service] ++ payload)) = .ok ((a, none), d) ∧
      a.segmentedMessage = true ∧ a.invokeId = invoke ∧ a.service = seqNo ∧ a.sequence = 0 ∧
      d.buf = [window, service] ++ payload := by
  have h : Parses Dec.apdu ([0x38] ++ ([invoke] ++ [seqNo]))
      ({ dataType := 0x30, segmentedMessage := true, invokeId := invoke, service := seqNo }, none) := by
    unfold Dec.apdu Dec.apduAck
    refine Parses.bind (Dec.parses_u8 _) ?_
    have e1 : (0x38 : UInt8) &&& 0xF0 = 0x30 := by decide
    have e2 : checkMask 0x38 0x08 = true := by decide
    have e3 : checkMask 0x38 0x02 = false := by decide
    have e4 : checkMask 0x38 0x04 = false := by decide
    simp only [e1, e2, e3, e4, true_or, if_true]
    exact Parses.bind (Dec.parses_u8 _) (Parses.bind' (Dec.parses_u8 _)
      (Parses.bind0 Dec.parses_error (Parses.pure _)))
  exact ⟨_, _, h none ([window, service] ++ payload), rfl, rfl, rfl, rfl, rfl⟩

/-- C20: every other PDU type is refused with an error when encoding. -/
theorem C20_refused (a : APDU) (e : Enc) (h1 : a.dataType ≠ 0x00) (h2 : a.dataType ≠ 0x10)
    (h3 : a.dataType ≠ 0x30) : (e.apdu a).2 ≠ none := by
  simp [Enc.apdu, h1, h2, h3]

example : (Enc.new.apdu { dataType := 0x20 }).2 = some .unsupportedPdu := by decide

/-! ## C21 -/

/-- An Error PDU in the standard form (clause 20.1.7): class and code as
application-tagged enumerations of one octet each. -/
def errorPdu (invoke service cls code : UInt8) : List UInt8 :=
  [0x50, invoke, service, 0x91, cls, 0x91, code]

/-- A one-octet tag without extensions. -/
theorem parses_plainTag (b : UInt8) (h1 : isExtendedTagNumber b = false)
    (h2 : isExtendedValue b = false) : ∃ t v, Parses Dec.tagNumberAndValue [b] (t, b, v) := by
  refine ⟨b >>> 4, if isOpening b || isClosing b then 0 else (b &&& 0x07).toUInt32, ?_⟩
  unfold Dec.tagNumberAndValue Dec.tagNumber
  refine Parses.bind' (a := (b >>> 4, b)) ?_ ?_
  · refine Parses.bind' (Dec.parses_u8 b) ?_
    simp only [h1, Bool.false_eq_true, if_false]
    exact Parses.pure _
  · refine Parses.bind0 (a := if isOpening b || isClosing b then 0 else (b &&& 0x07).toUInt32) ?_
      (Parses.pure _)
    unfold Dec.value
    simp only [h2, Bool.false_eq_true, if_false]
    split <;> exact Parses.pure _

/-- The tag octet is returned whatever follows. -/
theorem tag_meta (b : UInt8) (rest : List UInt8) (p : Option UInt8) :
    ∃ t v d, Dec.tagNumberAndValue ⟨b :: rest, p, none⟩ = .ok ((t, b, v), d) := by
  obtain ⟨⟨t, m, v⟩, d, h⟩ := Dec.tagNumberAndValue_total.1 ⟨b :: rest, p, none⟩
  have hm : m = b := by
    unfold Dec.tagNumberAndValue Dec.tagNumber at h
    obtain ⟨⟨t1, m1⟩, d1, h1, h⟩ := D.bind_inv h
    obtain ⟨v1, d2, h2, h⟩ := D.bind_inv h
    obtain ⟨m2, d3, h3, h1⟩ := D.bind_inv h1
    have hu := Dec.parses_u8 b p rest
    rw [show ([b] ++ rest) = b :: rest from rfl, h3] at hu
    have e : m2 = b := by cases hu; rfl
    have hm1 : m1 = m2 := by
      split at h1
      · obtain ⟨t3, d4, h4, h1⟩ := D.bind_inv h1
        cases h1; rfl
      · cases h1; rfl
    cases h
    rw [hm1, e]
  exact ⟨t, v, d, by rw [h, hm]⟩

/-- C21 fails: for every standard Error PDU with a class other than 5
("services") the error code reported is 0x91 – the tag octet – whatever code the
device sent.  The class is reported correctly. -/
theorem C21_fails (invoke service cls code : UInt8) (hc : cls.toNat < 8) (h5 : cls ≠ 5) :
    ∃ a d, Dec.apdu (Dec.new (errorPdu invoke service cls code)) = .ok ((a, none), d) ∧
      a.invokeId = invoke ∧ a.service = service ∧ a.errorClass.toNat = cls.toNat ∧
      a.errorCode = 0x91 := by
  have hf : ∀ c : Fin 8, c.val ≠ 5 → isExtendedTagNumber (UInt8.ofNat c.val) = false ∧
      isExtendedValue (UInt8.ofNat c.val) = false := by decide
  obtain ⟨h1, h2⟩ := hf ⟨cls.toNat, hc⟩ (fun hc' => h5 (by
    apply UInt8.toNat_inj.mp; exact hc'))
  simp only [u8_ofNat_toNat] at h1 h2
  obtain ⟨t1, v1, p1⟩ := parses_plainTag cls h1 h2
  obtain ⟨t2, v2, p2⟩ := parses_plainTag 0x91 (by decide) (by decide)
  have h : Parses Dec.apdu ([0x50] ++ ([invoke] ++ ([service] ++ ([0x91] ++ ([cls] ++ [0x91])))))
      ({ dataType := 0x50, invokeId := invoke, service := service, errorClass := cls.toUInt16,
         errorCode := (0x91 : UInt8).toUInt32 }, none) := by
    unfold Dec.apdu Dec.apduError
    refine Parses.bind (Dec.parses_u8 _) ?_
    have e1 : (0x50 : UInt8) &&& 0xF0 = 0x50 := by decide
    have e2 : checkMask 0x50 0x08 = false := by decide
    have e3 : checkMask 0x50 0x02 = false := by decide
    have e4 : checkMask 0x50 0x04 = false := by decide
    simp only [e1, e2, e3, e4]
    rw [if_neg (by decide), if_neg (by decide), if_neg (by decide), if_pos trivial]
    refine Parses.bind (Dec.parses_u8 _) (Parses.bind (Dec.parses_u8 _) ?_)
    refine Parses.bind (a := (9, 0x91)) ?_ ?_
    · unfold Dec.tagNumber
      refine Parses.bind' (Dec.parses_u8 _) ?_
      rw [if_neg (by decide)]
      exact Parses.pure _
    · dsimp only
      rw [if_neg (by decide)]
      exact Parses.bind p1 (Parses.bind' p2 (Parses.pure _))
  refine ⟨_, _, h none [code], rfl, rfl, ?_, rfl⟩
  simp

/-- C21 for class 5: here the misreading happens to skip the right octets, and
class and code are the ones sent.
Missing for the full claim: every other class (`C21_fails`). -/
theorem C21_services_partial (invoke service code : UInt8) :
    ∃ a d, Dec.apdu (Dec.new (errorPdu invoke service 5 code)) = .ok ((a, none), d) ∧
      a.invokeId = invoke ∧ a.service = service ∧ a.errorClass = 5 ∧
      a.errorCode.toNat = code.toNat := by
  obtain ⟨t, v, d, h⟩ := tag_meta code [] (some 0x91)
  refine ⟨{ dataType := 0x50, invokeId := invoke, service := service, errorClass := 5,
            errorCode := code.toUInt32 }, d, ?_, rfl, rfl, rfl, by simp⟩
  unfold Dec.apdu Dec.apduError Dec.new errorPdu
  have e1 : (0x50 : UInt8) &&& 0xF0 = 0x50 := by decide
  have e2 : checkMask 0x50 0x08 = false := by decide
  have e3 : checkMask 0x50 0x02 = false := by decide
  have e4 : checkMask 0x50 0x04 = false := by decide
  have run : ∀ (b : UInt8) (rest : List UInt8) (p), Dec.u8 ⟨b :: rest, p, none⟩ =
      .ok (b, ⟨rest, some b, none⟩) := fun b rest p => Dec.parses_u8 b p rest
  rw [D.bind_apply, run]
  simp only [Outcome.bind, e1, e2, e3, e4]
  rw [if_neg (by decide), if_neg (by decide), if_neg (by decide), if_pos trivial]
  rw [D.bind_apply, run]
  simp only [Outcome.bind]
  rw [D.bind_apply, run]
  simp only [Outcome.bind]
  have r1 : Dec.tagNumber ⟨[0x91, 5, 0x91, code], some service, none⟩ =
      .ok ((9, 0x91), ⟨[5, 0x91, code], some 0x91, none⟩) := by
    unfold Dec.tagNumber
    rw [D.bind_apply, run]
    simp only [Outcome.bind]
    rw [if_neg (by decide)]
    rfl
  have r2 : Dec.tagNumberAndValue ⟨[5, 0x91, code], some 0x91, none⟩ =
      .ok ((0, 5, 0x91), ⟨[code], some 0x91, none⟩) := by
    have hp : Parses Dec.tagNumberAndValue ([5] ++ [0x91]) (0, 5, 0x91) := by
      unfold Dec.tagNumberAndValue Dec.tagNumber
      refine Parses.bind (a := (0, 5)) (Parses.bind' (Dec.parses_u8 _) ?_)
        (Parses.bind' (a := (0x91 : UInt32)) ?_ (Parses.pure _))
      · rw [if_neg (by decide)]
        exact Parses.pure _
      · unfold Dec.value
        rw [if_pos (by decide)]
        refine Parses.bind' (Dec.parses_u8 _) ?_
        rw [if_neg (by decide), if_neg (by decide)]
        exact Parses.pure _
    exact hp (some 0x91) [code]
  rw [D.bind_apply, r1]
  simp only [Outcome.bind]
  rw [if_neg (by decide)]
  rw [D.bind_apply, r2]
  simp only [Outcome.bind]
  rw [D.bind_apply, h]
  rfl

/-- C21 for the form with an opening and a closing tag around class and code
(as used by services with error parameters): class and code are the ones sent,
for enumerations of any size. -/
theorem C21_constructed_partial (invoke service num : UInt8) (cls code : UInt32)
    (hc : cls.toNat < 65536) (rest : List UInt8) :
    ∃ a d, Dec.apdu (Dec.new ([0x50, invoke, service] ++ Spec.openTag num.toNat
        ++ (Spec.tagHeader 9 false (Spec.minOctets cls.toNat) ++ Spec.unsignedOctets cls.toNat)
        ++ (Spec.tagHeader 9 false (Spec.minOctets code.toNat) ++ Spec.unsignedOctets code.toNat)
        ++ Spec.closeTag num.toNat ++ rest)) = .ok ((a, none), d) ∧
      a.invokeId = invoke ∧ a.service = service ∧ a.errorClass.toNat = cls.toNat ∧
      a.errorCode = code ∧ d.buf = rest := by
  have hen : ∀ v : UInt32, ∃ x : UInt8 × UInt8 × UInt32,
      Parses Dec.tagNumberAndValue (Spec.tagHeader 9 false (Spec.minOctets v.toNat)) x ∧
      Parses (Dec.unsigned x.2.2.toNat) (Spec.unsignedOctets v.toNat) v := by
    intro v
    have h4 := minOctets_le4 v.toNat
    have hn : (UInt32.ofNat (Spec.minOctets v.toNat)).toNat = Spec.minOctets v.toNat := by
      simp; omega
    have ht := Dec.parses_tagHeader 9 false (UInt32.ofNat (Spec.minOctets v.toNat))
    rw [hn] at ht
    refine ⟨_, ht, ?_⟩
    simp only [hn]
    exact Dec.parses_unsigned v
  obtain ⟨x1, a1, b1⟩ := hen cls
  obtain ⟨x2, a2, b2⟩ := hen code
  have ho := open_facts ⟨_, Spec_numNibble_lt num.toNat⟩
  have hcl := close_facts ⟨_, Spec_numNibble_lt num.toNat⟩
  have h : Parses Dec.apdu ([0x50] ++ ([invoke] ++ ([service] ++ (Spec.openTag num.toNat ++
      (Spec.tagHeader 9 false (Spec.minOctets cls.toNat) ++ (Spec.unsignedOctets cls.toNat ++
      (Spec.tagHeader 9 false (Spec.minOctets code.toNat) ++ (Spec.unsignedOctets code.toNat
        ++ Spec.closeTag num.toNat))))))))
      ({ dataType := 0x50, invokeId := invoke, service := service, errorClass := cls.toUInt16,
         errorCode := code }, none) := by
    unfold Dec.apdu Dec.apduError
    refine Parses.bind (Dec.parses_u8 _) ?_
    have e1 : (0x50 : UInt8) &&& 0xF0 = 0x50 := by decide
    have e2 : checkMask 0x50 0x08 = false := by decide
    have e3 : checkMask 0x50 0x02 = false := by decide
    have e4 : checkMask 0x50 0x04 = false := by decide
    simp only [e1, e2, e3, e4]
    rw [if_neg (by decide), if_neg (by decide), if_neg (by decide), if_pos trivial]
    refine Parses.bind (Dec.parses_u8 _) (Parses.bind (Dec.parses_u8 _) ?_)
    refine Parses.bind (Dec.parses_tagNumber_open num) ?_
    dsimp only
    rw [if_pos (by simpa using ho.2.2.1)]
    refine Parses.bind a1 (Parses.bind b1 (Parses.bind a2 (Parses.bind b2
      (Parses.bind' (Dec.parses_tagNumber_close num) ?_))))
    dsimp only
    rw [if_pos (by simpa using hcl.2.2.2.1)]
    exact Parses.pure _
  have h' := h none rest
  simp only [List.append_assoc, List.cons_append, List.nil_append] at h'
  have e : ∀ x d, Dec.apdu ⟨0x50 :: invoke :: service :: (Spec.openTag num.toNat ++
      (Spec.tagHeader 9 false (Spec.minOctets cls.toNat) ++ (Spec.unsignedOctets cls.toNat ++
      (Spec.tagHeader 9 false (Spec.minOctets code.toNat) ++ (Spec.unsignedOctets code.toNat
        ++ (Spec.closeTag num.toNat ++ rest)))))), none, none⟩ = .ok (x, d) →
      Dec.apdu (Dec.new ([0x50, invoke, service] ++ Spec.openTag num.toNat
        ++ (Spec.tagHeader 9 false (Spec.minOctets cls.toNat) ++ Spec.unsignedOctets cls.toNat)
        ++ (Spec.tagHeader 9 false (Spec.minOctets code.toNat) ++ Spec.unsignedOctets code.toNat)
        ++ Spec.closeTag num.toNat ++ rest)) = .ok (x, d) := by
    intro x d hx
    simp only [Dec.new, List.append_assoc, List.cons_append, List.nil_append]
    exact hx
  exact ⟨_, _, e _ _ h', rfl, rfl, by simp; omega, rfl, rfl⟩

example : errorPdu 3 12 2 31 = [0x50, 3, 12, 0x91, 2, 0x91, 31] := rfl

end Bac.Props
