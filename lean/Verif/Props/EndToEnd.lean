import Verif.Lemmas.EndToEnd
/-!
# C43 - C45, C73, C74, C78 - C82: whole calls
-/

namespace Bac.Props

open Spec (AppVal Means NetAddr NetHeader)

/-! ## C45 Requests to routed devices carry a valid network header -/

/-- The datagram starts, after its frame header, with a legal network header for the
given station, and is decoded so (`none`: a station on the local network). -/
def Addressed (data : List UInt8) (dest : Option NetAddr) : Prop :=
  ∃ h : NetHeader, ∃ rest, h.Ok ∧ h.dest = dest ∧ h.src = none ∧ h.expectingReply = true ∧
    data.drop 4 = h.octets ++ rest ∧
    ∃ d, Dec.npdu (Dec.new (data.drop 4)) = .ok ((receivedHeader h, none, none), d) ∧ d.buf = rest

theorem addressed_of (data : List UInt8) (h : NetHeader) (rest : List UInt8) (hok : h.Ok)
    (hs : h.src = none) (he : h.expectingReply = true) (hd : data.drop 4 = h.octets ++ rest) :
    Addressed data h.dest := by
  refine ⟨h, rest, hok, rfl, hs, he, hd, ⟨rest, lastOr none h.octets, none⟩, ?_, rfl⟩
  rw [hd]
  exact header_parses h hok none rest

/-- A datagram is addressed to one station only. -/
theorem addressed_unique {data : List UInt8} {a b : Option NetAddr} (ha : Addressed data a)
    (hb : Addressed data b) : a = b := by
  obtain ⟨h, r, ok, rfl, _, _, _, d, hd, _⟩ := ha
  obtain ⟨h', r', ok', rfl, _, _, _, d', hd', _⟩ := hb
  rw [hd] at hd'
  simp only [Outcome.ok.injEq, Prod.mk.injEq] at hd'
  have hdest := congrArg NPDU.destination hd'.1.1
  simp only [receivedHeader] at hdest
  have o1 := ok.2.2.1
  have o2 := ok'.2.2.1
  cases e1 : h.dest with
  | none =>
    cases e2 : h'.dest with
    | none => rfl
    | some b => rw [e1, e2] at hdest; cases hdest
  | some a =>
    cases e2 : h'.dest with
    | none => rw [e1, e2] at hdest; cases hdest
    | some b =>
      rw [e1, e2] at hdest
      simp only [Option.map_some, Option.some.injEq, netAddress, Address.mk.injEq] at hdest
      obtain ⟨a1, a2, _⟩ := o1 a e1
      obtain ⟨b1, b2, _⟩ := o2 b e2
      have hn := congrArg UInt16.toNat hdest.1
      rw [UInt16.toNat_ofNat_of_lt' (by exact a2), UInt16.toNat_ofNat_of_lt' (by exact b2)] at hn
      rcases a with ⟨an, aa⟩
      rcases b with ⟨bn, ba⟩
      simp only at hn hdest
      simp [hn, hdest]

theorem addressed_request (data : List UInt8) (dest : Address) (req : List UInt8)
    (hd : data.drop 4 = requestOctets dest ++ req) (hl : dest.adr.length < 256)
    (h : dest.net = 0 ∨ dest.len.toNat = dest.adr.length) : Addressed data (station dest) := by
  rw [requestOctets_spec dest h] at hd
  exact addressed_of data (Spec.requestHeader (station dest)) req (requestOctets_ok dest hl) rfl rfl hd

/-- With a length octet that is too small the remaining octets of the address are
read as hop count and message. -/
theorem addressed_short (data : List UInt8) (dest : Address) (req : List UInt8)
    (hd : data.drop 4 = requestOctets dest ++ req) (h0 : dest.net ≠ 0)
    (h : dest.len.toNat < dest.adr.length) :
    Addressed data (some ⟨dest.net.toNat, dest.adr.take dest.len.toNat⟩) := by
  have hlen : (dest.adr.take dest.len.toNat).length = dest.len.toNat := by
    rw [List.length_take]; omega
  have hlt := dest.len.toNat_lt
  obtain ⟨x, xs, hx⟩ : ∃ x xs, dest.adr.drop dest.len.toNat = x :: xs := by
    cases hc : dest.adr.drop dest.len.toNat with
    | nil =>
      have := congrArg List.length hc
      rw [List.length_drop] at this
      simp at this; omega
    | cons x xs => exact ⟨x, xs, rfl⟩
  let hh : NetHeader := { Spec.requestHeader (some ⟨dest.net.toNat, dest.adr.take dest.len.toNat⟩) with hop := x }
  refine addressed_of data hh (xs ++ [255] ++ req) ⟨rfl, show 0 < 4 by decide, ?_, fun a ha => by cases ha⟩ rfl rfl ?_
  · intro a ha
    cases ha
    refine ⟨?_, UInt16.toNat_lt _, by rw [hlen]; exact hlt⟩
    rcases Nat.eq_zero_or_pos dest.net.toNat with hz | hz
    · exact absurd (UInt16.toNat_inj.mp hz) h0
    · exact hz
  · rw [hd]
    unfold requestOctets
    rw [if_neg h0]
    have ha := addr_octets { dest with adr := dest.adr.take dest.len.toNat } (by simp only; omega)
    have hsplit : dest.adr = dest.adr.take dest.len.toNat ++ x :: xs := by
      rw [← hx, List.take_append_drop]
    have ho : hh.octets = [1, 0x24] ++ (be16 dest.net ++ ([dest.len] ++ (dest.adr.take dest.len.toNat ++ [x]))) := by
      unfold NetHeader.octets
      simp only [hh, Spec.requestHeader, ha]
      show _ = [1, 0x24] ++ _
      show [1, 36] ++ _ ++ [] ++ [x] ++ [] = _
      simp
    rw [ho]
    conv_lhs => rw [hsplit]
    simp

/-- A datagram sent by ReadProperty, WriteProperty or ReadMultiProperty with valid
arguments. -/
def SentTo (dev : Device) (s : Sent) : Prop :=
  ∃ my : Address, my.net = 0 ∧ ∃ id script,
    ((∃ fuel rp p, ValidRead rp p ∧ s ∈ (clientReadProperty fuel my dev rp (some id) script).1) ∨
     (∃ wp p v, ValidRead wp p ∧ C29_Meant wp.object p v ∧ s ∈ (clientWriteProperty my dev wp (some id) script).1) ∨
     (∃ fuel os, (∀ o ∈ os, C04_Valid o.id) ∧ s ∈ (clientReadMulti fuel my dev os (some id) script).1))

/-- A datagram sent by WriteMultiProperty with valid arguments. -/
def SentToByWriteMulti (dev : Device) (s : Sent) : Prop :=
  ∃ my : Address, my.net = 0 ∧ ∃ id script, ∃ val : Property → AppVal, ∃ os,
    (∀ o ∈ os, C04_Valid o.id) ∧ (∀ o ∈ os, ∀ p ∈ o.properties, OwnType p.data (val p)) ∧
    s ∈ (clientWriteMulti my dev os (some id) script).1

theorem mem_attempts {α : Type} {dest : Address} {pack : List UInt8} {step : Recv → Outcome (Step α)}
    {script : Nat → Attempt} {n i : Nat} {last : CallErr} {s : Sent}
    (h : s ∈ (attempts dest pack step script n i last).1) : s = datagram dest pack := by
  obtain ⟨k, _, hk, _⟩ := attempts_sent dest pack step script n i last
  rw [hk] at h
  exact (List.mem_replicate.mp h).2

theorem sentTo_octets {dev : Device} {s : Sent} (h : SentTo dev s) :
    ∃ req, s.data.drop 4 = requestOctets dev.addr.setLength ++ req := by
  obtain ⟨my, hmy, id, script, h⟩ := h
  rcases h with ⟨fuel, rp, p, hv, h⟩ | ⟨wp, p, v, hv, hm, h⟩ | ⟨fuel, os, hv, h⟩
  · rw [readProperty_call fuel my dev rp p id script hmy hv] at h
    rw [mem_attempts h]; exact ⟨_, by simp [datagram, be16]; rfl⟩
  · rw [writeProperty_call my dev wp p v id script hmy hv hm] at h
    rw [mem_attempts h]; exact ⟨_, by simp [datagram, be16]; rfl⟩
  · by_cases h0 : dev.maxApdu = 0
    · unfold clientReadMulti at h; simp [h0] at h
    · rw [readMulti_call fuel my dev os id script hmy hv h0] at h
      split at h
      · simp at h
      · rw [mem_attempts h]; exact ⟨_, by simp [datagram, be16, readMultiPack]; rfl⟩

theorem sentToByWriteMulti_octets {dev : Device} {s : Sent} (h : SentToByWriteMulti dev s) :
    ∃ req, s.data.drop 4 = requestOctets dev.addr ++ req := by
  obtain ⟨my, hmy, id, script, val, os, hv, hw, h⟩ := h
  rw [writeMulti_call my dev val os id script hmy hv hw] at h
  split at h
  · simp at h
  · rw [mem_attempts h]; exact ⟨_, by simp [datagram, be16, writeMultiPack]; rfl⟩

/-- C45 for ReadProperty, WriteProperty and ReadMultiProperty, when the device is on
the local network, or its hardware address has one octet, or it stands for a whole
network (no address, length 0).
Missing: hardware addresses of two and more octets (`C45_fails_long`). -/
theorem C45_header_partial (dev : Device) (s : Sent) (hs : SentTo dev s)
    (ha : dev.addr.net = 0 ∨ dev.addr.adr.length = 1 ∨ (dev.addr.adr = [] ∧ dev.addr.len = 0))
    (hl : dev.addr.adr.length < 256) :
    Addressed s.data (if dev.addr.net = 0 then none else some ⟨dev.addr.net.toNat, dev.addr.adr⟩) := by
  obtain ⟨req, h⟩ := sentTo_octets hs
  have e : station dev.addr.setLength = (if dev.addr.net = 0 then none else some ⟨dev.addr.net.toNat, dev.addr.adr⟩) := by
    unfold station Address.setLength; split <;> rfl
  rw [← e]
  refine addressed_request s.data _ req h (by unfold Address.setLength; split <;> exact hl) ?_
  rcases ha with ha | ha | ⟨ha, ha'⟩
  · left; unfold Address.setLength; split <;> exact ha
  · right; unfold Address.setLength; rw [if_pos (by omega)]; simp [ha]
  · right; unfold Address.setLength; rw [if_neg (by simp [ha])]; simp [ha, ha']

/-- C45 fails: for every device behind a router whose hardware address has two or
more octets, every datagram of the three calls is addressed to the one-octet address
that is the first octet. -/
theorem C45_fails_long (dev : Device) (s : Sent) (hs : SentTo dev s) (x y : UInt8) (zs : List UInt8)
    (hn : dev.addr.net ≠ 0) (ha : dev.addr.adr = x :: y :: zs) :
    Addressed s.data (some ⟨dev.addr.net.toNat, [x]⟩) ∧
    ¬ Addressed s.data (some ⟨dev.addr.net.toNat, dev.addr.adr⟩) := by
  obtain ⟨req, h⟩ := sentTo_octets hs
  have e : dev.addr.setLength = { dev.addr with len := 1 } := by
    unfold Address.setLength; rw [if_pos (by simp [ha])]
  rw [e] at h
  have := addressed_short s.data _ req h hn (by simp [ha])
  simp only [ha] at this
  refine ⟨this, fun hc => ?_⟩
  have := addressed_unique this hc
  rw [ha] at this
  simp at this

/-- A WriteProperty to station 10:20 on network 5 goes to station 10. -/
example : ∃ s, SentTo { addr := { net := 5, len := 2, macLen := 6, adr := [10, 20] } } s ∧
    s.data = [0x81, 10, 0, 25, 1, 0x24, 0, 5, 1, 10, 20, 255, 0, 5, 3, 15, 0x0C, 0, 0x80, 0, 1, 0x19, 85, 0x3E, 0x00, 0x3F].set 3 26 := by
  refine ⟨_, ⟨{}, rfl, 3, fun _ => {}, Or.inr (Or.inl ⟨{ object := { id := ⟨2, 1⟩, properties := [⟨85, arrayAll, .one .null, 0⟩] } },
    ⟨85, arrayAll, .one .null, 0⟩, .null, ⟨⟨by decide, by decide⟩, ⟨[], rfl⟩, by decide⟩,
    Or.inr ⟨fun h => by rcases h.1 with h | h <;> revert h <;> decide, _, rfl, rfl, trivial, trivial⟩, List.mem_cons_self⟩)⟩, ?_⟩
  decide +kernel

/-- C45 for WriteMultiProperty, when the length octet in the device's address is right.
Missing: other lengths, and this call does not correct them (`C45_fails_writeMulti`). -/
theorem C45_writeMulti_partial (dev : Device) (s : Sent) (hs : SentToByWriteMulti dev s)
    (ha : dev.addr.net = 0 ∨ dev.addr.len.toNat = dev.addr.adr.length) (hl : dev.addr.adr.length < 256) :
    Addressed s.data (if dev.addr.net = 0 then none else some ⟨dev.addr.net.toNat, dev.addr.adr⟩) := by
  obtain ⟨req, h⟩ := sentToByWriteMulti_octets hs
  exact addressed_request s.data _ req h hl ha

/-- C45 fails for WriteMultiProperty: with a length octet that is too small the
address is cut off. -/
theorem C45_fails_writeMulti (dev : Device) (s : Sent) (hs : SentToByWriteMulti dev s)
    (hn : dev.addr.net ≠ 0) (ha : dev.addr.len.toNat < dev.addr.adr.length) :
    Addressed s.data (some ⟨dev.addr.net.toNat, dev.addr.adr.take dev.addr.len.toNat⟩) ∧
    ¬ Addressed s.data (some ⟨dev.addr.net.toNat, dev.addr.adr⟩) := by
  obtain ⟨req, h⟩ := sentToByWriteMulti_octets hs
  have := addressed_short s.data _ req h hn ha
  refine ⟨this, fun hc => ?_⟩
  have := addressed_unique this hc
  simp only [Option.some.injEq, NetAddr.mk.injEq, true_and] at this
  have := congrArg List.length this
  rw [List.length_take] at this
  omega

/-- C45 fails for every discovered device behind a router: its I-Am is published with
an address with which WriteMultiProperty addresses the whole network (no hardware
address, a broadcast), instead of the station that sent the I-Am. -/
theorem C45_fails_discovered (src : Address) (pending : UInt8 → Bool) (h : NetHeader) (hok : h.Ok)
    (f : UInt8) (hf : f = 10 ∨ f = 11) (i : IAm) (hi : C04_Valid i.id) (st : NetAddr)
    (hs : h.src = some st) (hne : st.adr ≠ []) (hl : src.len = 0) :
    ∃ a, handleMsg src pending (Spec.frame f (h.octets ++ Spec.iAm i.id.typ.toNat i.id.inst.toNat
        i.maxApdu.toNat i.segmentation.toNat i.vendor.toNat)) =
      ([.publish i.id.inst.toNat (.iam { i with addr := a })], .ok ()) ∧
      ∀ dev s, dev.addr = a → SentToByWriteMulti dev s →
        Addressed s.data (some ⟨st.net, []⟩) ∧ ¬ Addressed s.data (some st) := by
  refine ⟨_, C75_direct src pending h hok f hf i hi, ?_⟩
  intro dev s hdev hsent
  obtain ⟨s1, s2, s3⟩ := hok.2.2.2 st hs
  have hnet : dev.addr.net.toNat = st.net := by
    rw [hdev]; simp only [C75_address, hs]; exact UInt16.toNat_ofNat_of_lt' s2
  have hadr : dev.addr.adr = st.adr := by rw [hdev]; simp [C75_address, hs, hne]
  have hlen : dev.addr.len.toNat = 0 := by rw [hdev]; simp [C75_address, hs, hl]
  have hn : dev.addr.net ≠ 0 := by
    intro hc; rw [hc] at hnet; simp at hnet; omega
  have := C45_fails_writeMulti dev s hsent hn (by
    rw [hlen, hadr]; exact List.length_pos_iff.mpr hne)
  rw [hnet, hlen, hadr, List.take_zero] at this
  exact this

/-! ## C43 Oversized requests -/

/-- C43, refusal: a multi-property request whose encoding (network header included)
exceeds the limit is refused without a datagram.
Missing: encodings of 2³² octets and more (`C43_fails_huge`). -/
theorem C43_refused_partial (fuel : Nat) (my : Address) (dev : Device) (os ws : List Object) (id : UInt8)
    (script : Nat → Attempt) (val : Property → AppVal) (hmy : my.net = 0) (hv : ∀ o ∈ os, C04_Valid o.id)
    (hv' : ∀ o ∈ ws, C04_Valid o.id) (hw : ∀ o ∈ ws, ∀ p ∈ o.properties, OwnType p.data (val p))
    (h0 : dev.maxApdu ≠ 0) :
    (dev.maxApdu.toNat < (readMultiPack dev id os).length → (readMultiPack dev id os).length < 2 ^ 32 →
      clientReadMulti fuel my dev os (some id) script = ([], .ok (.error .tooLarge))) ∧
    (dev.maxApdu.toNat < (writeMultiPack dev id val ws).length → (writeMultiPack dev id val ws).length < 2 ^ 32 →
      clientWriteMulti my dev ws (some id) script = ([], .ok (.error .tooLarge))) := by
  constructor
  · intro h1 h2
    rw [readMulti_call fuel my dev os id script hmy hv h0, if_pos]
    rw [UInt32.lt_iff_toNat_lt, UInt32.toNat_ofNat_of_lt' (by exact h2)]
    exact h1
  · intro h1 h2
    rw [writeMulti_call my dev val ws id script hmy hv' hw, if_pos]
    rw [UInt32.lt_iff_toNat_lt, UInt32.toNat_ofNat_of_lt' (by exact h2)]
    exact h1

theorem replicate_octets (n : Nat) :
    ((List.replicate n ({ id := ⟨0, 0⟩ } : Object)).map readSpecOf).flatMap Spec.ReadSpec.octets
      = (List.replicate n [0x0C, 0, 0, 0, 0, 0x1E, 0x1F]).flatten := by
  induction n with
  | zero => rfl
  | succ n ih =>
    rw [List.replicate_succ, List.map_cons, List.flatMap_cons, ih, List.replicate_succ, List.flatten_cons]
    rfl

theorem length_replicate_flatten (n : Nat) (l : List UInt8) :
    (List.replicate n l).flatten.length = n * l.length := by
  induction n with
  | zero => simp
  | succ n ih => rw [List.replicate_succ, List.flatten_cons, List.length_append, ih, Nat.succ_mul, Nat.add_comm]

/-- C43 fails: a request for 613566756 objects takes 2³² + 2 octets, which is
compared with the limit as 2, and handed to the data link. -/
theorem C43_fails_huge (fuel : Nat) (my : Address) (dev : Device) (id : UInt8) (script : Nat → Attempt)
    (hmy : my.net = 0) (hlocal : dev.addr.net = 0) (hmax : 2 ≤ dev.maxApdu.toNat) :
    ∃ os, (clientReadMulti fuel my dev os (some id) script).1 ≠ [] ∧
      ∀ s ∈ (clientReadMulti fuel my dev os (some id) script).1, s.data.length = 2 ^ 32 + 6 := by
  have h0 : dev.maxApdu ≠ 0 := by intro h; rw [h] at hmax; simp at hmax
  obtain ⟨n, hn⟩ : ∃ n : Nat, n = 613566756 := ⟨_, rfl⟩
  have hlen : (readMultiPack dev id (List.replicate n { id := ⟨0, 0⟩ })).length = 2 ^ 32 + 2 := by
    unfold readMultiPack Spec.readMultiple
    rw [replicate_octets]
    have e : requestOctets dev.addr.setLength = [1, 4] := by
      unfold requestOctets Address.setLength; split <;> simp [hlocal]
    rw [e]
    rw [List.length_append, List.length_append, length_replicate_flatten]
    show 2 + (4 + n * 7) = _
    omega
  refine ⟨List.replicate n { id := ⟨0, 0⟩ }, ?_⟩
  have hv : ∀ o ∈ List.replicate n ({ id := ⟨0, 0⟩ } : Object), C04_Valid o.id := by
    intro o ho
    rw [(List.mem_replicate.mp ho).2]
    exact ⟨by decide, by decide⟩
  rw [readMulti_call fuel my dev _ id script hmy hv h0, if_neg]
  · constructor
    · obtain ⟨k, _, hk, hpos⟩ := attempts_sent dev.addr.setLength
        (readMultiPack dev id (List.replicate n { id := ⟨0, 0⟩ })) (readMultiStep fuel) script 2 0 (.failed .noId)
      simp only [hk]
      intro hc
      have := hpos (by omega)
      simp at hc; omega
    · intro s hs
      rw [mem_attempts hs]
      have e : (datagram dev.addr.setLength (readMultiPack dev id (List.replicate n { id := ⟨0, 0⟩ }))).data.length
          = 4 + (readMultiPack dev id (List.replicate n { id := ⟨0, 0⟩ })).length := by
        simp [datagram, be16]; omega
      rw [e, hlen]
      rfl
  · rw [hlen, UInt32.lt_iff_toNat_lt]
    have : (UInt32.ofNat (2 ^ 32 + 2)).toNat = 2 := by decide
    omega

/-! ## C82 Requests that fit are sent -/

/-- C82 for requests that fit together with their network header. -/
theorem C82_sent_partial (fuel : Nat) (my : Address) (dev : Device) (os ws : List Object) (id : UInt8)
    (script : Nat → Attempt) (val : Property → AppVal) (hmy : my.net = 0) (hv : ∀ o ∈ os, C04_Valid o.id)
    (hv' : ∀ o ∈ ws, C04_Valid o.id) (hw : ∀ o ∈ ws, ∀ p ∈ o.properties, OwnType p.data (val p))
    (h0 : dev.maxApdu ≠ 0) :
    ((readMultiPack dev id os).length ≤ dev.maxApdu.toNat →
      ⟨dev.addr.setLength, Spec.frame (sendFunction dev.addr.setLength none) (readMultiPack dev id os)⟩ ∈
        (clientReadMulti fuel my dev os (some id) script).1) ∧
    ((writeMultiPack dev id val ws).length ≤ dev.maxApdu.toNat →
      ⟨dev.addr, Spec.frame (sendFunction dev.addr none) (writeMultiPack dev id val ws)⟩ ∈
        (clientWriteMulti my dev ws (some id) script).1) := by
  have key : ∀ n : Nat, n ≤ dev.maxApdu.toNat → ¬ dev.maxApdu < UInt32.ofNat n := by
    intro n hn
    have := dev.maxApdu.toNat_lt
    rw [UInt32.lt_iff_toNat_lt, UInt32.toNat_ofNat_of_lt' (by show n < 2 ^ 32; omega)]
    omega
  have mem : ∀ {α : Type} (dest pack) (step : Recv → Outcome (Step α)),
      ⟨dest, Spec.frame (sendFunction dest none) pack⟩ ∈ (attempts dest pack step script 2 0 (.failed .noId)).1 := by
    intro α dest pack step
    obtain ⟨k, _, hk, hpos⟩ := attempts_sent dest pack step script 2 0 (.failed .noId)
    rw [hk, List.mem_replicate]
    refine ⟨by have := hpos (by omega); omega, ?_⟩
    rw [← datagram_frame]; rfl
  constructor
  · intro h
    rw [readMulti_call fuel my dev os id script hmy hv h0, if_neg (key _ h)]
    exact mem _ _ _
  · intro h
    rw [writeMulti_call my dev val ws id script hmy hv' hw, if_neg (key _ h)]
    exact mem _ _ _

/-- C82 fails: the network header counts as part of the application message: a
request that the device accepts (application message within the limit) is refused
when there is no room for the network header as well. -/
theorem C82_fails (fuel : Nat) (my : Address) (dev : Device) (os : List Object) (id : UInt8)
    (script : Nat → Attempt) (hmy : my.net = 0) (hv : ∀ o ∈ os, C04_Valid o.id) (h0 : dev.maxApdu ≠ 0)
    (hfit : (Spec.readMultiple id (os.map readSpecOf)).length ≤ dev.maxApdu.toNat)
    (hroom : dev.maxApdu.toNat < (Spec.requestHeader (if dev.addr.net = 0 then none else
      some ⟨dev.addr.net.toNat, dev.addr.adr⟩)).octets.length + (Spec.readMultiple id (os.map readSpecOf)).length)
    (hl : dev.addr.adr.length < 256) (hmax : dev.maxApdu.toNat < 2 ^ 31) :
    clientReadMulti fuel my dev os (some id) script = ([], .ok (.error .tooLarge)) := by
  have hlen : (requestOctets dev.addr.setLength).length = (Spec.requestHeader (if dev.addr.net = 0 then none else
      some ⟨dev.addr.net.toNat, dev.addr.adr⟩)).octets.length := by
    have hs := requestOctets_spec { dev.addr with len := UInt8.ofNat dev.addr.adr.length } (by right; simp; omega)
    have e : (requestOctets { dev.addr with len := UInt8.ofNat dev.addr.adr.length }).length
        = (requestOctets dev.addr.setLength).length := by
      exact requestOctets_length _ _ (setLength_net dev.addr).symm (setLength_adr dev.addr).symm
    rw [← e, hs]
    rfl
  have hadr : (Spec.requestHeader (if dev.addr.net = 0 then none else
      some ⟨dev.addr.net.toNat, dev.addr.adr⟩)).octets.length ≤ 300 := by
    rw [← hlen]
    unfold requestOctets
    rw [setLength_adr]
    split <;> simp [be16]
    omega
  refine (C43_refused_partial fuel my dev os [] id script (fun _ => .null) hmy hv (by simp) (by simp) h0).1 ?_ ?_
  · unfold readMultiPack
    rw [List.length_append, hlen]
    exact hroom
  · unfold readMultiPack
    rw [List.length_append, hlen]
    omega

/-- Limit 480, application message of 480 octets (68 objects of 7 octets and 4 octets
of header), local device: refused. -/
example : (Spec.readMultiple 1 (List.replicate 68 ⟨0, 0, []⟩)).length = 480 ∧
    clientReadMulti 9 {} { addr := { macLen := 6 }, maxApdu := 480 } (List.replicate 68 {}) (some 1) (fun _ => {})
      = ([], .ok (.error .tooLarge)) := by decide +kernel

/-! ## C44 The result of a call is what the device answered -/

/-- C44, silence: when nothing arrives in any attempt, each of the four calls (with
valid arguments) sends all its datagrams and returns a time-out. -/
theorem C44_timeout (fuel : Nat) (my : Address) (dev : Device) (id : UInt8) (script : Nat → Attempt)
    (hmy : my.net = 0) (h : ∀ i, script i = {}) :
    (∀ rp p, ValidRead rp p → (clientReadProperty fuel my dev rp (some id) script).2 = .ok (.error .timeout)) ∧
    (∀ wp p v, ValidRead wp p → C29_Meant wp.object p v →
      (clientWriteProperty my dev wp (some id) script).2 = .ok (.error .timeout)) ∧
    (∀ os, (∀ o ∈ os, C04_Valid o.id) → (readMultiPack dev id os).length ≤ dev.maxApdu.toNat →
      (clientReadMulti fuel my dev os (some id) script).2 = .ok (.error (.failed .timeout))) ∧
    (∀ (val : Property → AppVal) os, (∀ o ∈ os, C04_Valid o.id) →
      (∀ o ∈ os, ∀ p ∈ o.properties, OwnType p.data (val p)) →
      (writeMultiPack dev id val os).length ≤ dev.maxApdu.toNat →
      (clientWriteMulti my dev os (some id) script).2 = .ok (.error (.failed .timeout))) := by
  have hs : ∀ i, (script i).sendErr = none ∧ (script i).recv = .timeout := fun i => by rw [h i]; exact ⟨rfl, rfl⟩
  have key : ∀ n : Nat, n ≤ dev.maxApdu.toNat → ¬ dev.maxApdu < UInt32.ofNat n := by
    intro n hn
    have := dev.maxApdu.toNat_lt
    rw [UInt32.lt_iff_toNat_lt, UInt32.toNat_ofNat_of_lt' (by show n < 2 ^ 32; omega)]
    omega
  refine ⟨?_, ?_, ?_, ?_⟩
  · intro rp p hv
    rw [readProperty_call fuel my dev rp p id script hmy hv, attempts_timeout _ _ _ rfl script hs 0]
  · intro wp p v hv hm
    rw [writeProperty_call my dev wp p v id script hmy hv hm, attempts_timeout _ _ _ rfl script hs 1]
  · intro os hv hl
    have h0 : dev.maxApdu ≠ 0 := by
      intro hc
      rw [hc] at hl
      simp [readMultiPack, Spec.readMultiple, Spec.request, Spec.confirmedHeader] at hl
    rw [readMulti_call fuel my dev os id script hmy hv h0, if_neg (key _ hl), attempts_timeout _ _ _ rfl script hs 1]
    rfl
  · intro val os hv hw hl
    rw [writeMulti_call my dev val os id script hmy hv hw, if_neg (key _ hl), attempts_timeout _ _ _ rfl script hs 1]
    rfl

/-- C44, errors: an error delivered in the first attempt is what ReadProperty and
WriteProperty return, after one datagram. -/
theorem C44_error (fuel : Nat) (my : Address) (dev : Device) (id : UInt8) (script : Nat → Attempt)
    (c : UInt16) (k : UInt32) (hmy : my.net = 0) (h : script 0 = ⟨none, .error c k⟩) :
    (∀ rp p, ValidRead rp p → ∃ s, clientReadProperty fuel my dev rp (some id) script = ([s], .ok (.error (.device c k)))) ∧
    (∀ wp p v, ValidRead wp p → C29_Meant wp.object p v →
      ∃ s, clientWriteProperty my dev wp (some id) script = ([s], .ok (.error (.device c k)))) := by
  refine ⟨fun rp p hv => ⟨datagram dev.addr.setLength (requestOctets dev.addr.setLength ++ Spec.readProperty id
        rp.object.id.typ.toNat rp.object.id.inst.toNat p.ref), ?_⟩, fun wp p v hv hm =>
      ⟨datagram dev.addr.setLength (requestOctets dev.addr.setLength ++ Spec.writeProperty id
        wp.object.id.typ.toNat wp.object.id.inst.toNat p.ref v.encoding
        (if p.priority.toNat = 0 then none else some p.priority.toNat)), ?_⟩⟩
  · rw [readProperty_call fuel my dev rp p id script hmy hv, attempts_done (by rw [h]) (by rw [h]; rfl)]
  · rw [writeProperty_call my dev wp p v id script hmy hv hm, attempts_done (by rw [h]) (by rw [h]; rfl)]

/-- C44, errors, for the multi-property calls: the error delivered in the last
attempt is returned (inside another one).
Missing: an error delivered in the first attempt (`C44_fails_multi`). -/
theorem C44_multi_error_partial (fuel : Nat) (my : Address) (dev : Device) (id : UInt8) (script : Nat → Attempt)
    (c : UInt16) (k : UInt32) (hmy : my.net = 0) (h0 : script 0 = ⟨none, .timeout⟩ ∨ ∃ c' k', script 0 = ⟨none, .error c' k'⟩)
    (h1 : script 1 = ⟨none, .error c k⟩) :
    (∀ os, (∀ o ∈ os, C04_Valid o.id) → dev.maxApdu ≠ 0 → (readMultiPack dev id os).length ≤ dev.maxApdu.toNat →
      (clientReadMulti fuel my dev os (some id) script).2 = .ok (.error (.failed (.device c k)))) ∧
    (∀ (val : Property → AppVal) os, (∀ o ∈ os, C04_Valid o.id) →
      (∀ o ∈ os, ∀ p ∈ o.properties, OwnType p.data (val p)) →
      (writeMultiPack dev id val os).length ≤ dev.maxApdu.toNat →
      (clientWriteMulti my dev os (some id) script).2 = .ok (.error (.failed (.device c k)))) := by
  have key : ∀ n : Nat, n ≤ dev.maxApdu.toNat → ¬ dev.maxApdu < UInt32.ofNat n := by
    intro n hn
    have := dev.maxApdu.toNat_lt
    rw [UInt32.lt_iff_toNat_lt, UInt32.toNat_ofNat_of_lt' (by show n < 2 ^ 32; omega)]
    omega
  have two : ∀ {α : Type} (dest pack) (step : Recv → Outcome (Step α)),
      (∀ c k, step (.error c k) = .ok (.retry (.device c k))) → step .timeout = .ok (.retry .timeout) →
      (attempts dest pack step script 2 0 (.failed .noId)).2 = .ok (.error (.device c k)) := by
    intro α dest pack step he ht
    rcases h0 with h0 | ⟨c', k', h0⟩
    · rw [attempts_retry (e := .timeout) (by rw [h0]) (by rw [h0]; exact ht),
        attempts_retry (e := .device c k) (by rw [h1]) (by rw [h1]; exact he c k)]
      rfl
    · rw [attempts_retry (e := .device c' k') (by rw [h0]) (by rw [h0]; exact he c' k'),
        attempts_retry (e := .device c k) (by rw [h1]) (by rw [h1]; exact he c k)]
      rfl
  refine ⟨fun os hv h0 hl => ?_, fun val os hv hw hl => ?_⟩
  · rw [readMulti_call fuel my dev os id script hmy hv h0, if_neg (key _ hl)]
    simp only [two _ _ (readMultiStep fuel) (fun _ _ => rfl) rfl]
    rfl
  · rw [writeMulti_call my dev val os id script hmy hv hw, if_neg (key _ hl)]
    simp only [two _ _ writeMultiStep (fun _ _ => rfl) rfl]
    rfl

/-- C44 fails for the multi-property calls: after an error from the device the
request is sent again, and when nothing more arrives the call returns a time-out
instead of the device's error. -/
theorem C44_fails_multi (fuel : Nat) (my : Address) (dev : Device) (id : UInt8) (script : Nat → Attempt)
    (c : UInt16) (k : UInt32) (hmy : my.net = 0) (h0 : script 0 = ⟨none, .error c k⟩)
    (h1 : script 1 = ⟨none, .timeout⟩) :
    (∀ os, (∀ o ∈ os, C04_Valid o.id) → dev.maxApdu ≠ 0 → (readMultiPack dev id os).length ≤ dev.maxApdu.toNat →
      ∃ s, clientReadMulti fuel my dev os (some id) script = ([s, s], .ok (.error (.failed .timeout)))) ∧
    (∀ (val : Property → AppVal) os, (∀ o ∈ os, C04_Valid o.id) →
      (∀ o ∈ os, ∀ p ∈ o.properties, OwnType p.data (val p)) →
      (writeMultiPack dev id val os).length ≤ dev.maxApdu.toNat →
      ∃ s, clientWriteMulti my dev os (some id) script = ([s, s], .ok (.error (.failed .timeout)))) := by
  have key : ∀ n : Nat, n ≤ dev.maxApdu.toNat → ¬ dev.maxApdu < UInt32.ofNat n := by
    intro n hn
    have := dev.maxApdu.toNat_lt
    rw [UInt32.lt_iff_toNat_lt, UInt32.toNat_ofNat_of_lt' (by show n < 2 ^ 32; omega)]
    omega
  have two : ∀ {α : Type} (dest pack) (step : Recv → Outcome (Step α)),
      (∀ c k, step (.error c k) = .ok (.retry (.device c k))) → step .timeout = .ok (.retry .timeout) →
      attempts dest pack step script 2 0 (.failed .noId) =
        ([datagram dest pack, datagram dest pack], .ok (.error .timeout)) := by
    intro α dest pack step he ht
    rw [attempts_retry (e := .device c k) (by rw [h0]) (by rw [h0]; exact he c k),
      attempts_retry (e := .timeout) (by rw [h1]) (by rw [h1]; exact ht)]
    rfl
  refine ⟨fun os hv h0 hl => ⟨datagram dev.addr.setLength (readMultiPack dev id os), ?_⟩,
    fun val os hv hw hl => ⟨datagram dev.addr (writeMultiPack dev id val os), ?_⟩⟩
  · rw [readMulti_call fuel my dev os id script hmy hv h0, if_neg (key _ hl), two _ _ (readMultiStep fuel) (fun _ _ => rfl) rfl]
    rfl
  · rw [writeMulti_call my dev val os id script hmy hv hw, if_neg (key _ hl), two _ _ writeMultiStep (fun _ _ => rfl) rfl]
    rfl

/-! ## C73 A write succeeds only when it was acknowledged -/

theorem answerHeader_ok {b : List UInt8} {d : Dec} (h : answerHeader b = .ok (.ok d)) :
    ∃ a, Dec.apdu (Dec.new b) = .ok ((a, none), d) ∧ a.errorClass = 0 ∧ a.errorCode = 0 := by
  unfold answerHeader at h
  obtain ⟨⟨a, err⟩, d', ha⟩ := Dec.total_apdu (Dec.new b)
  rw [ha] at h
  cases err with
  | some e => simp at h
  | none =>
    simp only at h
    split at h
    · simp at h
    · rename_i hne
      simp only [Outcome.ok.injEq, Except.ok.injEq] at h
      subst h
      exact ⟨a, ha, by by_contra hc; exact hne (Or.inl hc), by by_contra hc; exact hne (Or.inr hc)⟩

/-- C73, as far as it goes: a successful WriteProperty received octets in its last
attempt, and they start with a complete message header without an error.
Missing: that they acknowledge this request, or any (`C73_fails_request`, `C73_fails_other`). -/
theorem C73_received_partial (my : Address) (dev : Device) (wp : PropertyData)
    (invoke : Option UInt8) (script : Nat → Attempt)
    (h : (clientWriteProperty my dev wp invoke script).2 = .ok (.ok ())) :
    ∃ j < 2, ∃ b a d, script j = ⟨none, .bytes b⟩ ∧ Dec.apdu (Dec.new b) = .ok ((a, none), d) ∧
      a.errorClass = 0 ∧ a.errorCode = 0 ∧ (clientWriteProperty my dev wp invoke script).1.length = j + 1 := by
  rcases clientWriteProperty_cases my dev wp invoke with ⟨r, hr, h'⟩ | ⟨pack, h'⟩
  · rw [h'] at h; exact absurd h (hr ())
  · rw [h'] at h ⊢
    obtain ⟨j, hj, h1, h2⟩ := attempts_success _ _ _ _ _ _ _ _ h
    obtain ⟨k, hk, hk', _⟩ := attempts_sent dev.addr.setLength pack writeStep script 2 0 (.failed .noId)
    have hj0 : j < 2 := by
      have := congrArg List.length (hj.symm.trans hk')
      simp at this; omega
    rw [Nat.zero_add] at h1 h2
    refine ⟨j, hj0, ?_⟩
    cases hr : (script j).recv with
    | timeout => rw [hr] at h2; simp [writeStep] at h2
    | error c k => rw [hr] at h2; simp [writeStep] at h2
    | other => rw [hr] at h2; simp [writeStep] at h2
    | bytes b =>
      rw [hr] at h2
      simp only [writeStep] at h2
      cases hx : answerHeader b with
      | ok x =>
        rw [hx] at h2
        cases x with
        | ok d =>
          obtain ⟨a, ha, ha1, ha2⟩ := answerHeader_ok hx
          refine ⟨b, a, d, ?_, ha, ha1, ha2, by rw [hj]; simp⟩
          cases hsc : script j with
          | mk se rc => rw [hsc] at hr h1; simp only at hr h1; rw [hr, h1]
        | error e => simp [Outcome.ok_bind, Outcome.pure_eq] at h2
      | panic k => rw [hx] at h2; simp [bind, Outcome.bind] at h2
      | diverge => rw [hx] at h2; simp [bind, Outcome.bind] at h2

/-- C73 fails: a confirmed request that any peer sends with the same invoke id makes
the write succeed. -/
theorem C73_fails_request (src : Address) (pending : UInt8 → Bool) (h : NetHeader) (hok : h.Ok)
    (segsApdu service id : UInt8) (params : List UInt8) (my : Address) (dev : Device) (hmy : my.net = 0)
    (wp : PropertyData) (p : Property) (v : AppVal) (hv : ValidRead wp p) (hm : C29_Meant wp.object p v) :
    ∃ d, (handleMsg src pending (Spec.frame 10 (h.octets ++
        (Spec.confirmedHeader false false false segsApdu id 0 0 service ++ params)))).1 = [.deliver id d] ∧
      ∀ script, script 0 = ⟨none, d.toRecv⟩ → (clientWriteProperty my dev wp (some id) script).2 = .ok (.ok ()) := by
  refine ⟨_, C37_fails_request src pending h hok segsApdu id service params, ?_⟩
  intro script hs
  obtain ⟨d, hd⟩ := answerHeader_request segsApdu id service params
  rw [writeProperty_call my dev wp p v id script hmy hv hm, attempts_done (r := .ok ()) (by rw [hs]) (by
    rw [hs]
    simp only [Delivered.toRecv, writeStep]
    rw [show Spec.confirmedHeader false false false segsApdu id 0 0 service ++ params
      = [0, segsApdu, id, service] ++ params from rfl, hd]
    rfl)]

/-- C73 fails: so does an acknowledgement of any other service, simple or complex. -/
theorem C73_fails_other (src : Address) (pending : UInt8 → Bool) (h : NetHeader) (hok : h.Ok)
    (f : UInt8) (hf : f = 10 ∨ f = 11)
    (service id : UInt8) (data : List UInt8) (my : Address) (dev : Device) (hmy : my.net = 0)
    (wp : PropertyData) (p : Property) (v : AppVal) (hv : ValidRead wp p) (hm : C29_Meant wp.object p v) :
    ∃ d, (handleMsg src pending (Spec.frame f (h.octets ++ Spec.complexAck id service data))).1 = [.deliver id d] ∧
      ∀ script, script 0 = ⟨none, d.toRecv⟩ → (clientWriteProperty my dev wp (some id) script).2 = .ok (.ok ()) := by
  refine ⟨.apdu (Spec.complexAck id service data), by rw [(C72_acks src pending h hok f hf id service data).2], ?_⟩
  intro script hs
  rw [writeProperty_call my dev wp p v id script hmy hv hm, attempts_done (r := .ok ()) (by rw [hs]) (by
    rw [hs]
    simp only [Delivered.toRecv, writeStep, Spec.complexAck]
    rw [answerHeader_ack 0x30 id service (Or.inl rfl)]
    rfl)]

/-- A write of null to AnalogValue 1; a peer's Who-Has-like confirmed request with
invoke id 3 arrives meanwhile, and the write is reported as done. -/
example : (clientWriteProperty {} { addr := { macLen := 6 } } { object := { id := ⟨2, 1⟩, properties := [⟨85, arrayAll, .one .null, 0⟩] } }
    (some 3) (fun _ => ⟨none, .bytes [0, 5, 3, 12, 0x0C, 2, 0, 0, 9, 0x19, 76]⟩)).2 = .ok (.ok ()) := by decide +kernel

/-! ## C79 A complete write -/

/-- C79.  The request goes out as one datagram, octet for octet as the standard says,
and the device's SimpleACK makes the call succeed.  (Arguments as in C29; addresses
as in C45.) -/
theorem C79_write_partial (src : Address) (pending : UInt8 → Bool) (h : NetHeader) (hok : h.Ok)
    (f : UInt8) (hf : f = 10 ∨ f = 11) (id : UInt8) (my : Address) (dev : Device) (hmy : my.net = 0)
    (ha : dev.addr.net = 0 ∨ dev.addr.adr.length = 1)
    (wp : PropertyData) (p : Property) (v : AppVal) (hv : ValidRead wp p) (hm : C29_Meant wp.object p v) :
    ∃ d kind dest, handleMsg src pending (Spec.frame f (h.octets ++ Spec.simpleAck id 15)) = ([.deliver id d], .ok ()) ∧
      ∀ script, script 0 = ⟨none, d.toRecv⟩ → clientWriteProperty my dev wp (some id) script =
        ([⟨dest, Spec.frame kind ((Spec.requestHeader (if dev.addr.net = 0 then none else
            some ⟨dev.addr.net.toNat, dev.addr.adr⟩)).octets ++
          Spec.writeProperty id wp.object.id.typ.toNat wp.object.id.inst.toNat p.ref v.encoding
            (if p.priority.toNat = 0 then none else some p.priority.toNat))⟩], .ok (.ok ())) := by
  refine ⟨.apdu (Spec.simpleAck id 15), sendFunction dev.addr.setLength none, dev.addr.setLength,
    (C72_acks src pending h hok f hf id 15 []).1, ?_⟩
  intro script hs
  have e := requestOctets_spec dev.addr.setLength (by
    rw [setLength_net]
    rcases ha with ha | ha
    · exact Or.inl ha
    · right; unfold Address.setLength; rw [if_pos (by omega)]; simp [ha])
  unfold station at e
  rw [setLength_net, setLength_adr] at e
  rw [writeProperty_call my dev wp p v id script hmy hv hm, attempts_done (r := .ok ()) (by rw [hs]) (by
    rw [hs]
    simp only [Delivered.toRecv, writeStep, Spec.simpleAck]
    rw [show [0x20, id, 15] = [0x20, id, 15] ++ [] from rfl, answerHeader_ack 0x20 id 15 (Or.inr rfl)]
    rfl), ← e, ← datagram_frame]
  rfl

/-! ## C78 A complete read -/

/-- `readAnswer_values` with the parts of the result. -/
theorem readAnswer_out (fuel : Nat) (invoke service : UInt8) (id : ObjectID) (p : Property) (vs : List AppVal)
    (hid : C04_Valid id) (hv : ∀ v ∈ vs, C71_Readable v) (hf : vs.length < fuel) :
    ∃ ss out, List.Forall₂ DecodedAs ss vs ∧ out.object.id = id ∧
      out.object.properties = [⟨p.typ, p.arrayIndex, if ss.length = 1 then .one ss.head! else .many ss, 0⟩] ∧
      readAnswer fuel (Spec.complexAck invoke service (Spec.readPropertyAckBody id.typ.toNat id.inst.toNat p.ref
        (vs.flatMap AppVal.encoding))) = .ok (.ok out) := by
  obtain ⟨ss, hss, hans⟩ := readAnswer_values fuel invoke service id p vs hid hv hf
  refine ⟨ss, { object := { id := id, properties := [⟨p.typ, p.arrayIndex, if ss.length = 1 then .one ss.head! else .many ss, 0⟩] } },
    hss, rfl, rfl, ?_⟩
  rw [hans]
  match ss with
  | [] => rfl
  | [s] => rfl
  | s :: t :: ss => simp

/-- C78.  The request goes out as one datagram, octet for octet as the standard says,
and the values in the device's acknowledgement are what the call returns.
(Readable values as in C71, addresses as in C45.) -/
theorem C78_read_partial (src : Address) (pending : UInt8 → Bool) (h : NetHeader) (hok : h.Ok)
    (f : UInt8) (hf : f = 10 ∨ f = 11) (id : UInt8) (my : Address) (dev : Device) (hmy : my.net = 0)
    (ha : dev.addr.net = 0 ∨ dev.addr.adr.length = 1)
    (rp : PropertyData) (p : Property) (hv : ValidRead rp p) (vs : List AppVal)
    (hvs : ∀ v ∈ vs, C71_Readable v) (fuel : Nat) (hfuel : vs.length < fuel) :
    ∃ d kind dest out ss, handleMsg src pending (Spec.frame f (h.octets ++ Spec.complexAck id 12
        (Spec.readPropertyAckBody rp.object.id.typ.toNat rp.object.id.inst.toNat p.ref (vs.flatMap AppVal.encoding))))
        = ([.deliver id d], .ok ()) ∧
      List.Forall₂ Means ss vs ∧ out.object.id = rp.object.id ∧
      out.object.properties = [⟨p.typ, p.arrayIndex, if ss.length = 1 then .one ss.head! else .many ss, 0⟩] ∧
      ∀ script, script 0 = ⟨none, d.toRecv⟩ → clientReadProperty fuel my dev rp (some id) script =
        ([⟨dest, Spec.frame kind ((Spec.requestHeader (if dev.addr.net = 0 then none else
            some ⟨dev.addr.net.toNat, dev.addr.adr⟩)).octets ++
          Spec.readProperty id rp.object.id.typ.toNat rp.object.id.inst.toNat p.ref)⟩], .ok (.ok out)) := by
  obtain ⟨ss, out, hss, h1, h2, hans⟩ := readAnswer_out fuel id 12 rp.object.id p vs hv.1 hvs hfuel
  refine ⟨_, sendFunction dev.addr.setLength none, dev.addr.setLength, out, ss,
    (C72_acks src pending h hok f hf id 12 _).2, decoded_means hss, h1, h2, ?_⟩
  intro script hs
  have e := requestOctets_spec dev.addr.setLength (by
    rw [setLength_net]
    rcases ha with ha | ha
    · exact Or.inl ha
    · right; unfold Address.setLength; rw [if_pos (by omega)]; simp [ha])
  unfold station at e
  rw [setLength_net, setLength_adr] at e
  rw [readProperty_call fuel my dev rp p id script hmy hv, attempts_done (r := .ok out) (by rw [hs]) (by
    rw [hs]
    simp only [Delivered.toRecv, readStep, hans, Outcome.ok_bind]
    rfl), ← e, ← datagram_frame]
  rfl

/-- C78 for ReadMultiProperty: any number of objects asked for, any number of results
(readable values and access errors) in the answer. -/
theorem C78_readMulti_partial (src : Address) (pending : UInt8 → Bool) (h : NetHeader) (hok : h.Ok)
    (f : UInt8) (hf : f = 10 ∨ f = 11) (id : UInt8) (my : Address) (dev : Device) (hmy : my.net = 0)
    (ha : dev.addr.net = 0 ∨ dev.addr.adr.length = 1)
    (os : List Object) (hv : ∀ o ∈ os, C04_Valid o.id)
    (hfit : (Spec.requestHeader (if dev.addr.net = 0 then none else some ⟨dev.addr.net.toNat, dev.addr.adr⟩)).octets.length
      + (Spec.readMultiple id (os.map readSpecOf)).length ≤ dev.maxApdu.toNat)
    (rs : List Spec.ObjResult) (hrs : ∀ r ∈ rs, ObjOk r) :
    ∃ d kind dest out N, handleMsg src pending (Spec.frame f (h.octets ++ Spec.complexAck id 14
        (rs.flatMap Spec.ObjResult.octets))) = ([.deliver id d], .ok ()) ∧
      List.Forall₂ CarriesObj out rs ∧
      ∀ fuel ≥ N, ∀ script, script 0 = ⟨none, d.toRecv⟩ → clientReadMulti fuel my dev os (some id) script =
        ([⟨dest, Spec.frame kind ((Spec.requestHeader (if dev.addr.net = 0 then none else
            some ⟨dev.addr.net.toNat, dev.addr.adr⟩)).octets ++
          Spec.readMultiple id (os.map readSpecOf))⟩], .ok (.ok out)) := by
  obtain ⟨out, hout, N, hN⟩ := C33_complete_partial rs hrs
  refine ⟨_, sendFunction dev.addr.setLength none, dev.addr.setLength, out, N,
    (C72_acks src pending h hok f hf id 14 _).2, hout, ?_⟩
  intro fuel hfuel script hs
  have e := requestOctets_spec dev.addr.setLength (by
    rw [setLength_net]
    rcases ha with ha | ha
    · exact Or.inl ha
    · right; unfold Address.setLength; rw [if_pos (by omega)]; simp [ha])
  unfold station at e
  rw [setLength_net, setLength_adr] at e
  rw [← e] at hfit ⊢
  have hl : (readMultiPack dev id os).length ≤ dev.maxApdu.toNat := by
    unfold readMultiPack; rw [List.length_append]; exact hfit
  have h0 : dev.maxApdu ≠ 0 := by
    intro hc
    rw [hc] at hl
    simp [readMultiPack, Spec.readMultiple, Spec.request, Spec.confirmedHeader] at hl
  have hk : ¬ dev.maxApdu < UInt32.ofNat (readMultiPack dev id os).length := by
    have := dev.maxApdu.toNat_lt
    rw [UInt32.lt_iff_toNat_lt, UInt32.toNat_ofNat_of_lt' (by show (readMultiPack dev id os).length < 2 ^ 32; omega)]
    omega
  obtain ⟨d', hd'⟩ := hN fuel hfuel (some 14)
  rw [readMulti_call fuel my dev os id script hmy hv h0, if_neg hk, attempts_done (r := .ok out) (by rw [hs]) (by
    rw [hs]
    simp only [Delivered.toRecv, readMultiStep, Spec.complexAck]
    rw [answerHeader_ack 0x30 id 14 (Or.inl rfl)]
    simp only [Outcome.ok_bind, hd']
    rfl), ← datagram_frame]
  rfl

/-- The hypotheses for a request of three properties of two objects, from a device
with limit 480 on network 7, and an answer with the sample of C33. -/
example : let os : List Object := [{ id := ⟨0, 1⟩, properties := [⟨85, arrayAll, .one .nil, 0⟩, ⟨77, arrayAll, .one .nil, 0⟩] },
      { id := ⟨8, 99⟩, properties := [⟨76, 2, .one .nil, 0⟩] }]
    (∀ o ∈ os, C04_Valid o.id) ∧ (Spec.requestHeader (some ⟨7, [42]⟩)).octets.length
      + (Spec.readMultiple 3 (os.map readSpecOf)).length ≤ 480 ∧
    Spec.readMultiple 3 (os.map readSpecOf) = [0, 5, 3, 14, 0x0C, 0, 0, 0, 1, 0x1E, 0x09, 85, 0x09, 77, 0x1F,
      0x0C, 2, 0, 0, 99, 0x1E, 0x09, 76, 0x19, 2, 0x1F] := by
  refine ⟨?_, by decide +kernel, by decide +kernel⟩
  simp [C04_Valid]

/-! ## C74 A read returns the property that was asked for -/

/-- C74 fails: an acknowledgement for any other object and property, of any service,
is returned as the result of the read. -/
theorem C74_fails (src : Address) (pending : UInt8 → Bool) (h : NetHeader) (hok : h.Ok)
    (f : UInt8) (hf : f = 10 ∨ f = 11) (id service : UInt8) (my : Address) (dev : Device) (hmy : my.net = 0)
    (rp : PropertyData) (p : Property) (hv : ValidRead rp p) (other : ObjectID) (q : Property)
    (ho : C04_Valid other) (vs : List AppVal)
    (hvs : ∀ v ∈ vs, C71_Readable v) (fuel : Nat) (hfuel : vs.length < fuel) :
    ∃ d out ss, handleMsg src pending (Spec.frame f (h.octets ++ Spec.complexAck id service
        (Spec.readPropertyAckBody other.typ.toNat other.inst.toNat q.ref (vs.flatMap AppVal.encoding))))
        = ([.deliver id d], .ok ()) ∧
      List.Forall₂ Means ss vs ∧ out.object.id = other ∧
      out.object.properties.map Property.typ = [q.typ] ∧
      ∀ script, script 0 = ⟨none, d.toRecv⟩ → (clientReadProperty fuel my dev rp (some id) script).2 = .ok (.ok out) := by
  obtain ⟨ss, out, hss, h1, h2, hans⟩ := readAnswer_out fuel id service other q vs ho hvs hfuel
  refine ⟨_, out, ss, (C72_acks src pending h hok f hf id service _).2, decoded_means hss, h1, by rw [h2]; rfl, ?_⟩
  intro script hs
  rw [readProperty_call fuel my dev rp p id script hmy hv, attempts_done (r := .ok out) (by rw [hs]) (by
    rw [hs]
    simp only [Delivered.toRecv, readStep, hans, Outcome.ok_bind]
    rfl)]

/-- Object 0/5 asked for, the answer is about object 1/7. -/
example : (clientReadProperty 9 {} { addr := { macLen := 6 } } { object := { id := ⟨0, 5⟩, properties := [⟨85, arrayAll, .one .nil, 0⟩] } }
    (some 3) (fun _ => ⟨none, .bytes [0x30, 3, 12, 0x0C, 0, 0x40, 0, 7, 0x19, 28, 0x3E, 0x21, 9, 0x3F]⟩)).2
    = .ok (.ok { object := { id := ⟨1, 7⟩, properties := [⟨28, arrayAll, .one (.uint 9), 0⟩] } }) := by decide +kernel

/-! ## C80 Invalid requests are refused -/

/-- C80 fails: a ReadProperty for an object type above 1023 or a property above
4194303 is sent: the header of a request without object and property. -/
theorem C80_fails_read (fuel : Nat) (my : Address) (dev : Device) (rp : PropertyData) (id : UInt8)
    (script : Nat → Attempt) (hmy : my.net = 0) (h : C25_Invalid rp.object) (hne : rp.object.properties ≠ []) :
    ∃ s, (clientReadProperty fuel my dev rp (some id) script).1 = [s] ∧
      ∃ header, s.data.drop 4 = header ++ [0, 5, id, 12] := by
  have e : clientReadProperty fuel my dev rp (some id) script =
      attempts dev.addr.setLength (requestOctets dev.addr.setLength ++ [0, 5, id, 12])
        (readStep fuel) script 1 0 (.failed .noId) := by
    unfold clientReadProperty
    simp only [npdu_request my _ hmy, Outcome.ok_bind, readProperty_bare _ id rp h hne]
    rfl
  obtain ⟨k, hk, hk', hpos⟩ := attempts_sent dev.addr.setLength (requestOctets dev.addr.setLength ++ [0, 5, id, 12])
    (readStep fuel) script 1 0 (.failed .noId)
  have : k = 1 := by have := hpos (by omega); omega
  subst this
  refine ⟨datagram dev.addr.setLength (requestOctets dev.addr.setLength ++ [0, 5, id, 12]), by rw [e, hk']; rfl, ?_⟩
  exact ⟨requestOctets dev.addr.setLength, by simp [datagram, be16]⟩

/-- C80 fails for WriteProperty as well, although the encoder reports the error. -/
theorem C80_fails_write (my : Address) (dev : Device) (wp : PropertyData) (id : UInt8)
    (script : Nat → Attempt) (hmy : my.net = 0) (h : C25_Invalid wp.object) (hne : wp.object.properties ≠ []) :
    (clientWriteProperty my dev wp (some id) script).1 ≠ [] ∧
    ∀ s ∈ (clientWriteProperty my dev wp (some id) script).1,
      ∃ header, s.data.drop 4 = header ++ [0, 5, id, 15] := by
  obtain ⟨err, hb⟩ := writeProperty_bare (requestOctets dev.addr.setLength) id wp h hne
  have e : clientWriteProperty my dev wp (some id) script =
      attempts dev.addr.setLength (requestOctets dev.addr.setLength ++ [0, 5, id, 15])
        writeStep script 2 0 (.failed .noId) := by
    unfold clientWriteProperty
    simp only [npdu_request my _ hmy, Outcome.ok_bind, hb]
  obtain ⟨k, hk, hk', hpos⟩ := attempts_sent dev.addr.setLength (requestOctets dev.addr.setLength ++ [0, 5, id, 15])
    writeStep script 2 0 (.failed .noId)
  rw [e]
  constructor
  · rw [hk']
    intro hc
    have := hpos (by omega)
    simp at hc; omega
  · intro s hs
    rw [mem_attempts hs]
    exact ⟨requestOctets dev.addr.setLength, by simp [datagram, be16]⟩

/-- C80 holds as far as the answer goes: success is never reported without an answer
(C44, C73), so with a silent network an invalid read ends in an error. -/
theorem C80_silent_partial (fuel : Nat) (my : Address) (dev : Device) (rp out : PropertyData) (id : UInt8)
    (script : Nat → Attempt) (hs : ∀ i, (script i).recv = .timeout) :
    (clientReadProperty fuel my dev rp (some id) script).2 ≠ .ok (.ok out) := by
  intro h
  obtain ⟨b, a, d, d', h0, _⟩ := C44_read_success fuel my dev rp out (some id) script h
  have := hs 0
  rw [h0] at this
  cases this

example : (clientWriteProperty {} { addr := { macLen := 6 } } { object := { id := ⟨1024, 5⟩, properties := [⟨85, arrayAll, .one .null, 0⟩] } }
    (some 3) (fun _ => ⟨none, .bytes [0x20, 3, 15]⟩))
    = ([⟨{ macLen := 6 }, [0x81, 10, 0, 10, 1, 4, 0, 5, 3, 15]⟩], .ok (.ok ())) := by decide +kernel

/-! ## C81 Calls return -/

/-- C81 fails: an acknowledgement that ends after a value keeps ReadMultiProperty
busy forever. -/
theorem C81_fails_hang (my : Address) (dev : Device) (os : List Object) (id : UInt8) (hmy : my.net = 0)
    (hv : ∀ o ∈ os, C04_Valid o.id) (h0 : dev.maxApdu ≠ 0)
    (hfit : (readMultiPack dev id os).length ≤ dev.maxApdu.toNat)
    (rs : List Spec.ObjResult) (hrs : ∀ r ∈ rs, ObjOk r) (typ inst : Nat)
    (hid : typ < 2 ^ 10 ∧ inst < 2 ^ 22) (xs : List (Spec.PropRef × Spec.ReadResult))
    (hxs : ∀ x ∈ xs, ResultOk x) (r : Spec.PropRef) (hr : RefOk r) (vs : List AppVal) (hne : vs ≠ [])
    (hvs : ∀ v ∈ vs, C71_Readable v) (script : Nat → Attempt)
    (hs : script 0 = ⟨none, .bytes (Spec.complexAck id 14 (Before rs typ inst xs r ++ Spec.openTag 4 ++ vs.flatMap AppVal.encoding))⟩) :
    ∃ N, ∀ fuel ≥ N, (clientReadMulti fuel my dev os (some id) script).2 = .diverge := by
  obtain ⟨N, hN⟩ := C34_fails_truncated rs hrs typ inst hid xs hxs r hr vs hne hvs
  refine ⟨N, fun fuel hf => ?_⟩
  have hk : ¬ dev.maxApdu < UInt32.ofNat (readMultiPack dev id os).length := by
    have := dev.maxApdu.toNat_lt
    rw [UInt32.lt_iff_toNat_lt, UInt32.toNat_ofNat_of_lt' (by show (readMultiPack dev id os).length < 2 ^ 32; omega)]
    omega
  rw [readMulti_call fuel my dev os id script hmy hv h0, if_neg hk, attempts_diverge (by rw [hs]) (by
    rw [hs]
    simp only [readMultiStep, Spec.complexAck]
    rw [answerHeader_ack 0x30 id 14 (Or.inl rfl)]
    simp only [Outcome.ok_bind, hN fuel hf]
    rfl)]
  rfl

/-- C81 fails: without a property in the request ReadProperty and WriteProperty crash. -/
theorem C81_fails_panic (fuel : Nat) (my : Address) (dev : Device) (id : UInt8) (script : Nat → Attempt)
    (data : PropertyData) (hmy : my.net = 0) (ht : data.object.id.typ.toNat ≤ 1023) (hp : data.object.properties = []) :
    (clientReadProperty fuel my dev data (some id) script).2.Panics ∧
    (clientWriteProperty my dev data (some id) script).2.Panics := by
  have ht' := (validObjectType_none data.object.id.typ).mpr ht
  constructor
  · unfold clientReadProperty
    simp only [npdu_request my _ hmy, Outcome.ok_bind, Enc.readProperty, Enc.readPropertyHeader, ht', hp]
    exact trivial
  · unfold clientWriteProperty
    simp only [npdu_request my _ hmy, Outcome.ok_bind, Enc.writeProperty, Enc.readPropertyHeader, ht', hp]
    exact trivial

theorem apdu_sticky : Sticky Dec.apdu ∧ Shrinks Dec.apdu := by
  have hlen : Sticky Dec.len := by
    constructor
    · intro d a d' h h'; cases h'; exact h
    · intro d a d' h h'; cases h'; exact h
  constructor
  · unfold Dec.apdu Dec.apduAck Dec.apduUnconfirmed Dec.apduConfirmed Dec.apduError Dec.optU8 Dec.restBytes
    repeat' first
      | exact Sticky.pure _
      | exact Dec.u8_all.2.1 | exact (Dec.bytes_all _).2.1 | exact Dec.error_all.2 | exact hlen
      | exact Dec.tagNumber_total.2 | exact Dec.tagNumberAndValue_total.2 | exact (Dec.unsigned_total _).2
      | (refine Sticky.bind ?_ fun _ => ?_)
      | dsimp only
      | split
  · unfold Dec.apdu Dec.apduAck Dec.apduUnconfirmed Dec.apduConfirmed Dec.apduError Dec.optU8 Dec.restBytes
    repeat' first
      | exact Shrinks.pure _
      | exact Dec.shrinks_u8 | exact Dec.shrinks_bytes _ | exact Dec.shrinks_error | exact Dec.shrinks_len
      | exact Dec.shrinks_tagNumber | exact Dec.shrinks_tagNumberAndValue | exact Dec.shrinks_unsigned _
      | (refine Shrinks.bind ?_ fun _ => ?_)
      | dsimp only
      | split

theorem readAnswer_ends (fuel : Nat) (b : List UInt8) (h : b.length ≤ fuel) : readAnswer fuel b ≠ .diverge := by
  unfold readAnswer answerHeader
  obtain ⟨⟨a, err⟩, d, ha⟩ := Dec.total_apdu (Dec.new b)
  rw [ha]
  cases err with
  | some e => simp [Outcome.ok_bind, Outcome.pure_eq]
  | none =>
    simp only
    split
    · simp [Outcome.ok_bind, Outcome.pure_eq]
    · simp only [Outcome.ok_bind]
      have hl := apdu_sticky.2 _ _ _ ha
      have hi := apdu_sticky.1.2 _ _ _ (by intro hc; exact absurd rfl hc) ha
      have := readProperty_terminates d hi fuel (le_trans hl h)
      cases hr : Dec.readProperty fuel d with
      | diverge => exact absurd hr this
      | panic k => simp [bind, Outcome.bind]
      | ok r =>
        obtain ⟨⟨out, err⟩, d'⟩ := r
        simp only [Outcome.ok_bind]
        cases err with
        | some e => simp [Outcome.pure_eq]
        | none => cases hd : d'.err <;> simp [hd, Outcome.pure_eq]

theorem answerHeader_ends (b : List UInt8) : ∃ r, answerHeader b = .ok r := by
  unfold answerHeader
  obtain ⟨⟨a, err⟩, d, ha⟩ := Dec.total_apdu (Dec.new b)
  rw [ha]
  cases err with
  | some e => exact ⟨_, rfl⟩
  | none =>
    simp only
    split
    · exact ⟨_, rfl⟩
    · exact ⟨_, rfl⟩

/-- A loop whose passes all satisfy something that excludes `diverge` ends. -/
theorem attempts_ends {α : Type} (dest : Address) (pack : List UInt8) (step : Recv → Outcome (Step α))
    (script : Nat → Attempt) (h : ∀ i, step (script i).recv ≠ .diverge) (n : Nat) : ∀ (i : Nat) (last : CallErr),
    (attempts dest pack step script n i last).2 ≠ .diverge := by
  induction n with
  | zero => intro i last; simp [attempts_zero]
  | succ n ih =>
    intro i last
    rcases attempts_cases dest pack step script n i last with ⟨e, _, h'⟩ | ⟨e, _, _, h'⟩ | ⟨r, _, _, h'⟩ | ⟨k, _, _, h'⟩ | ⟨_, h1, _⟩
    · rw [h']; exact ih _ _
    · rw [h']; exact ih _ _
    · rw [h']; simp
    · rw [h']; simp
    · exact absurd h1 (h i)

theorem attempts_returns {α : Type} (dest : Address) (pack : List UInt8) (step : Recv → Outcome (Step α))
    (script : Nat → Attempt) (h : ∀ i, (step (script i).recv).Returns) (n : Nat) : ∀ (i : Nat) (last : CallErr),
    (attempts dest pack step script n i last).2.Returns := by
  induction n with
  | zero => intro i last; exact trivial
  | succ n ih =>
    intro i last
    rcases attempts_cases dest pack step script n i last with ⟨e, _, h'⟩ | ⟨e, _, _, h'⟩ | ⟨r, _, _, h'⟩ | ⟨k, _, h1, _⟩ | ⟨_, h1, _⟩
    · rw [h']; exact ih _ _
    · rw [h']; exact ih _ _
    · rw [h']; exact trivial
    · have := h i; rw [h1] at this; exact absurd this (by simp)
    · have := h i; rw [h1] at this; exact absurd this (by simp [Outcome.Returns])

/-- C81 for valid arguments: whatever arrives, WriteProperty and WriteMultiProperty
return, and ReadProperty does not loop (`fuel`, the number of rounds of the value
loop, need only be the number of octets received).
Missing: crashes on invalid arguments (`C81_fails_panic`) or on an answer (C12), and
ReadMultiProperty (`C81_fails_hang`). -/
theorem C81_ends_partial (fuel : Nat) (my : Address) (dev : Device) (id : UInt8) (script : Nat → Attempt)
    (hmy : my.net = 0) :
    (∀ rp p, ValidRead rp p → (∀ i b, (script i).recv = .bytes b → b.length ≤ fuel) →
      (clientReadProperty fuel my dev rp (some id) script).2 ≠ .diverge) ∧
    (∀ wp p v, ValidRead wp p → C29_Meant wp.object p v →
      (clientWriteProperty my dev wp (some id) script).2.Returns) ∧
    (∀ (val : Property → AppVal) os, (∀ o ∈ os, C04_Valid o.id) →
      (∀ o ∈ os, ∀ p ∈ o.properties, OwnType p.data (val p)) →
      (clientWriteMulti my dev os (some id) script).2.Returns) := by
  refine ⟨?_, ?_, ?_⟩
  · intro rp p hv hb
    rw [readProperty_call fuel my dev rp p id script hmy hv]
    apply attempts_ends
    intro i
    cases hr : (script i).recv with
    | timeout => simp [readStep]
    | error c k => simp [readStep]
    | other => simp [readStep]
    | bytes b =>
      simp only [readStep]
      have := readAnswer_ends fuel b (hb i b hr)
      cases hx : readAnswer fuel b with
      | diverge => exact absurd hx this
      | panic k => simp [bind, Outcome.bind]
      | ok x => cases x <;> simp [Outcome.ok_bind, Outcome.pure_eq]
  · intro wp p v hv hm
    rw [writeProperty_call my dev wp p v id script hmy hv hm]
    apply attempts_returns
    intro i
    cases hr : (script i).recv with
    | timeout => exact trivial
    | error c k => exact trivial
    | other => exact trivial
    | bytes b =>
      simp only [writeStep]
      obtain ⟨x, hx⟩ := answerHeader_ends b
      rw [hx]
      cases x <;> exact trivial
  · intro val os hv hw
    rw [writeMulti_call my dev val os id script hmy hv hw]
    split
    · exact trivial
    · have := attempts_returns dev.addr (writeMultiPack dev id val os) writeMultiStep script (by
        intro i
        cases hr : (script i).recv with
        | timeout => exact trivial
        | error c k => exact trivial
        | other => exact trivial
        | bytes b =>
          simp only [writeMultiStep]
          obtain ⟨x, hx⟩ := answerHeader_ends b
          rw [hx]
          cases x <;> exact trivial) 2 0 (.failed .noId)
      cases hc : (attempts dev.addr (writeMultiPack dev id val os) writeMultiStep script 2 0 (.failed .noId)).2 with
      | ok x => simp only [hc]; cases x <;> exact trivial
      | panic k => rw [hc] at this; exact absurd this (by simp)
      | diverge => rw [hc] at this; exact absurd this (by simp [Outcome.Returns])

end Bac.Props
