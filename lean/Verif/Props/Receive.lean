import Verif.Lemmas.Client
import Verif.Spec.Datagram
import Verif.Props.Messages
import Verif.Props.Services
/-!
# C37 - C40, C72, C75 - C77: the receive path
-/

namespace Bac.Props

open Spec (NetHeader NetAddr)

/-! ## Reading any legal network header -/

/-- A decoded network address. -/
def netAddress (a : NetAddr) : Address :=
  { net := UInt16.ofNat a.net, len := UInt8.ofNat a.adr.length, adr := a.adr }

/-- The header value expected for a header on the wire. -/
def receivedHeader (h : NetHeader) : NPDU :=
  { version := h.version, destination := h.dest.map netAddress, source := h.src.map netAddress,
    expectingReply := h.expectingReply, priority := UInt8.ofNat h.priority,
    hopCount := if h.dest.isSome then h.hop else 0 }

theorem wireAddr_netAddress (o : Option NetAddr)
    (h : ∀ a, o = some a → 0 < a.net ∧ a.net < 65536 ∧ a.adr.length < 256) :
    wireAddr (o.map netAddress) = o ∧ LenOk (o.map netAddress) ∧
      decodedAddr (o.map netAddress) = o.map netAddress := by
  cases o with
  | none => exact ⟨rfl, trivial, rfl⟩
  | some a =>
    obtain ⟨h1, h2, h3⟩ := h a rfl
    have hn : (UInt16.ofNat a.net).toNat = a.net := by simp; omega
    have hne : ¬ UInt16.ofNat a.net = 0 := by
      intro hz
      have := congrArg UInt16.toNat hz
      rw [hn] at this
      simp at this; omega
    refine ⟨?_, ?_, ?_⟩
    · simp only [Option.map_some, wireAddr, netAddress, if_neg hne, hn]
    · simp [LenOk, netAddress]; omega
    · simp [decodedAddr, netAddress, hne]

theorem header_parses (h : NetHeader) (hok : h.Ok) :
    Parses Dec.npdu h.octets (receivedHeader h, none, none) := by
  obtain ⟨hm, hp, hd, hs⟩ := hok
  obtain ⟨d1, d2, d3⟩ := wireAddr_netAddress h.dest hd
  obtain ⟨s1, s2, s3⟩ := wireAddr_netAddress h.src hs
  let n : NPDU := { version := h.version, destination := h.dest.map netAddress, source := h.src.map netAddress, expectingReply := h.expectingReply, priority := UInt8.ofNat h.priority, hopCount := h.hop }
  have hpn : n.priority.toNat = h.priority := by simp [n]; omega
  have hw : wireHeader n = h := by
    rcases h with ⟨v, er, pr, dest, hop, src, msg⟩
    simp only at hm; subst hm
    simp only [wireHeader, hpn, n, d1, s1]
    rfl
  obtain ⟨e, he, _, hpar⟩ := C17_roundtrip_partial n (by rw [hpn]; exact hp) d2 s2
    (by intro hc; cases hc)
  rw [C17_layout n (by rw [hpn]; exact hp) d2 s2, hw] at he
  cases he
  have hdec : decodedHeader n = receivedHeader h := by
    simp only [decodedHeader, n, d3, s3, receivedHeader]
    cases h.dest <;> simp
  rw [hdec] at hpar
  exact hpar

theorem frame_octets (f : UInt8) (payload : List UInt8) :
    ∃ l, Spec.frame f payload = [0x81, f] ++ be16 l ++ payload := by
  refine ⟨UInt16.ofNat (4 + payload.length), ?_⟩
  have : Spec.bigEndian 2 (4 + payload.length) = be16 (UInt16.ofNat (4 + payload.length)) := by
    rw [be16_spec]
    simp only [Spec.bigEndian, UInt16.toNat_ofNat']
    have h1 : (4 + payload.length) % 2 ^ 16 / 256 % 256 = (4 + payload.length) / 256 % 256 := by omega
    have h2 : (4 + payload.length) % 2 ^ 16 % 256 = (4 + payload.length) % 256 := by omega
    rw [h1, h2]
  rw [Spec.frame, this]

/-! ## Inversion of the receive path -/

theorem networkMsg_inv {src : Address} {pending : UInt8 → Bool} {d : Dec} {e : Effect}
    (h : e ∈ (networkMsg src pending d).1) :
    ∃ n nets d1, Dec.npdu d = .ok ((n, nets, none), d1) ∧ d1.err = none ∧
      (e ∈ (networkEffects n nets).1 ∨
        ∃ a d2, Dec.apdu d1 = .ok ((a, none), d2) ∧ e ∈ (apduEffects src n pending d1.buf a).1) := by
  obtain ⟨⟨n, nets, err⟩, d1, hn⟩ := Dec.total_npdu d
  have herr := Dec.reports_npdu _ _ _ hn
  unfold networkMsg at h
  rw [hn] at h
  simp only at herr h
  cases err with
  | some x => simp at h
  | none =>
    refine ⟨n, nets, d1, hn, herr.symm, ?_⟩
    simp only [Option.isSome_none, Bool.false_eq_true, if_false] at h
    cases hne : networkEffects n nets with
    | mk es o =>
      rw [hne] at h
      cases o with
      | ok u =>
        obtain ⟨⟨a, err⟩, d2, ha⟩ := Dec.total_apdu d1
        rw [ha] at h
        simp only at h
        cases err with
        | some x => left; simpa using h
        | none =>
          simp only [Option.isSome_none, Bool.false_eq_true, if_false, List.mem_append] at h
          rcases h with h | h
          · exact Or.inl h
          · exact Or.inr ⟨a, d2, ha, h⟩
      | panic k => exact Or.inl h
      | diverge => exact Or.inl h

theorem handleMsg_inv {src : Address} {pending : UInt8 → Bool} {b : List UInt8} {e : Effect}
    (h : e ∈ (handleMsg src pending b).1) :
    ∃ t f l payload p, b = [t, f] ++ be16 l ++ payload ∧ (f = 11 ∨ f = 10 ∨ f = 4) ∧
      e ∈ (networkMsg src pending ⟨payload, p, none⟩).1 := by
  obtain ⟨⟨hd, err⟩, d, hb⟩ := Dec.total_bvlc (Dec.new b)
  have herr := Dec.reports_bvlc _ _ _ hb
  unfold handleMsg at h
  rw [hb] at h
  simp only at herr h
  cases err with
  | some x => simp at h
  | none =>
    simp only [Option.isSome_none, Bool.false_eq_true, if_false] at h
    have htook := (Took.bind Dec.took_u8 fun t => Took.bind Dec.took_u8 fun f =>
      Took.bind Dec.took_u16 fun l => Took.bind Dec.took_error fun er =>
      Took.pure ((⟨t, f, l, []⟩ : BVLC), er)) _ _ _ hb herr.symm
    obtain ⟨_, bs, hbs, t, x, y, rfl, rfl, f, x, y, rfl, rfl, l, x, y, rfl, rfl, er, x, y, rfl, rfl, hp, rfl⟩ := htook
    injection hp with hp1 _
    subst hp1
    split at h
    · rename_i hf
      rcases d with ⟨payload, p, er'⟩
      simp only at herr
      subst herr
      refine ⟨t, f, l, payload, p, by simpa [Dec.new] using hbs, hf, ?_⟩
      cases hnm : networkMsg src pending ⟨payload, p, none⟩ with
      | mk es o =>
        rw [hnm] at h
        cases o with
        | ok r => simp only at h; split at h <;> exact h
        | panic k => exact h
        | diverge => exact h
    · simp at h

theorem nib_facts : ∀ t : UInt8, (t &&& 0xF0 = 0x20 → t.toNat / 16 = 2) ∧ (t &&& 0xF0 = 0x30 → t.toNat / 16 = 3) ∧
    (t &&& 0xF0 = 0x50 → t.toNat / 16 = 5) ∧ (t &&& 0xF0 = 0 → t.toNat / 16 = 0) ∧
    (t &&& 0xF0 = 0x10 → t.toNat / 16 = 1) := by decide +kernel

theorem apduEffects_deliver {src : Address} {n : NPDU} {pending : UInt8 → Bool} {send : List UInt8}
    {a : APDU} {id : UInt8} {x : Delivered}
    (h : Effect.deliver id x ∈ (apduEffects src n pending send a).1) :
    id = a.invokeId ∧ ((a.dataType = 0x20 ∨ a.dataType = 0x30 ∨ a.dataType = 0) ∧ x = .apdu send ∨
      a.dataType = 0x50 ∧ x = .error a.errorClass a.errorCode) := by
  unfold apduEffects at h
  split_ifs at h with h1 h2 h3 h4 h5
  · split at h
    · split at h <;> simp at h
    · simp at h
    · simp at h
  · split at h <;> simp at h
  · simp at h
  · simp only [List.mem_singleton, Effect.deliver.injEq] at h
    exact ⟨h.1, Or.inl ⟨h4, h.2⟩⟩
  · simp only [List.mem_singleton, Effect.deliver.injEq] at h
    exact ⟨h.1, Or.inr ⟨h5, h.2⟩⟩
  · simp at h

/-! ## C37 Only replies complete a pending request -/

/-- C37 fails: a confirmed request sent by any peer is delivered to the pending
request that happens to have the same invoke id. -/
theorem C37_fails_request (src : Address) (pending : UInt8 → Bool) (h : NetHeader) (hok : h.Ok)
    (segsApdu invoke service : UInt8) (params : List UInt8) :
    let apdu := Spec.confirmedHeader false false false segsApdu invoke 0 0 service ++ params
    (handleMsg src pending (Spec.frame 10 (h.octets ++ apdu))).1 = [.deliver invoke (.apdu apdu)] := by
  intro apdu
  obtain ⟨l, hl⟩ := frame_octets 10 (h.octets ++ apdu)
  obtain ⟨p, hp⟩ := handleMsg_frame src pending 0x81 10 l (h.octets ++ apdu) (Or.inl rfl)
  rw [hl, hp]
  obtain ⟨a, d, ha, _, _, h2, h3, _⟩ := Dec.apdu_request_run 0 segsApdu invoke service params
    (lastOr p h.octets) rfl rfl
  rw [networkMsg_of src pending h.octets apdu (receivedHeader h) (header_parses h hok) rfl ha]
  simp [apduEffects, ended, h2, h3]

/-- C37 fails: a network layer message that says "network 8192 + k could be reached
through me" (I-Could-Be-Router-To-Network, clause 6.4.3) is delivered as the answer
to the pending request with invoke id k. -/
theorem C37_fails_network (src : Address) (pending : UInt8 → Bool) (k performance : UInt8) :
    let h : NetHeader := { version := 1, expectingReply := false, priority := 0, dest := none, hop := 0, src := none, msg := some ⟨2, 0⟩ }
    (handleMsg src pending (Spec.frame 10 (h.octets ++ Spec.bigEndian 2 (8192 + k.toNat) ++ [performance]))).1
      = [.deliver k (.apdu [0x20, k, performance])] := by
  intro h
  have hk : Spec.bigEndian 2 (8192 + k.toNat) = [0x20, k] := by
    have := k.toNat_lt
    simp only [Spec.bigEndian, List.nil_append, List.cons_append]
    have h1 : (8192 + k.toNat) / 256 % 256 = 32 := by omega
    have h2 : (8192 + k.toNat) % 256 = k.toNat := by omega
    rw [h1, h2, u8_ofNat_toNat]
    rfl
  have ho : h.octets = [1, 0x80, 2] := by decide
  rw [hk, ho]
  obtain ⟨l, hl⟩ := frame_octets 10 ([1, 0x80, 2] ++ [0x20, k] ++ [performance])
  obtain ⟨p, hp⟩ := handleMsg_frame src pending 0x81 10 l _ (Or.inl rfl)
  rw [hl, hp]
  have hn : Dec.npdu ⟨[1, 0x80, 2] ++ [0x20, k] ++ [performance], p, none⟩ =
      .ok (({ version := 1, isNetworkLayerMessage := true, networkLayerMessageType := 2 }, none, none),
        ⟨[0x20, k, performance], lastOr p [1, 0x80, 2], none⟩) :=
    Dec.parses_npdu_msg 1 0x80 2 rfl rfl rfl (by decide) (by decide) (by decide) p [0x20, k, performance]
  have ha := Dec.parses_ack 0x20 k performance (Or.inr rfl) (lastOr p [1, 0x80, 2]) []
  rw [List.append_nil] at ha
  unfold networkMsg
  rw [hn]
  simp only [networkEffects, ha]
  rw [apduEffects_octets _ _ _ _ _ (Or.inl rfl)]
  rfl

/-- C37 fails: a frame forwarded for the originator a.0.32.k completes the pending
request with invoke id k, whatever the frame contains: its address is read as the answer. -/
theorem C37_fails_forwarded (src : Address) (pending : UInt8 → Bool) (a k p1 p2 : UInt8)
    (npdu : List UInt8) :
    (handleMsg src pending (Spec.forwarded (a, 0, 32, k) (p1, p2) npdu)).1
      = [.deliver k (.apdu ([32, k, p1, p2] ++ npdu))] := by
  unfold Spec.forwarded
  obtain ⟨l, hl⟩ := frame_octets 4 ([a, 0, 32, k, p1, p2] ++ npdu)
  simp only
  rw [hl]
  obtain ⟨p, hp⟩ := handleMsg_run src pending 0x81 4 l ([a, 0, 32, k, p1, p2] ++ npdu) (by simp)
  rw [hp, endedFor_fst]
  have ha := Dec.parses_ack 0x20 k p1 (Or.inr rfl) (lastOr p [a, 0]) ([p2] ++ npdu)
  have := networkMsg_of src pending [a, 0] ([32, k, p1, p2] ++ npdu) _
    (Dec.parses_npdu_plain a 0 rfl rfl rfl) rfl ha
  rw [show [a, 0, 32, k, p1, p2] ++ npdu = [a, 0] ++ ([32, k, p1, p2] ++ npdu) from rfl, this,
    apduEffects_octets _ _ _ _ _ (Or.inl rfl)]
  rfl

/-- C37, what does hold: whatever is delivered for invoke id `id` came in a frame
with function 4, 10 or 11 that ends in an APDU which is an answer or a confirmed
request carrying that id (or is an Error PDU cut after its first octet, then `id`
is 0, which is never a pending id); octets are delivered unchanged. -/
theorem C37_origin_partial (src : Address) (pending : UInt8 → Bool) (b : List UInt8) (id : UInt8)
    (x : Delivered) (h : Effect.deliver id x ∈ (handleMsg src pending b).1) :
    ∃ pre apdu, b = pre ++ apdu ∧ 4 ≤ pre.length ∧
      (b[1]? = some 4 ∨ b[1]? = some 10 ∨ b[1]? = some 11) ∧
      (Spec.Answers apdu id ∨ Spec.Requests apdu id ∨ (id = 0 ∧ apdu.length = 1 ∧ Spec.pduType apdu = some 5)) ∧
      (x = .apdu apdu ∧ Spec.pduType apdu ≠ some 5 ∨ (∃ c k, x = .error c k) ∧ Spec.pduType apdu = some 5) := by
  obtain ⟨t, f, l, payload, p, hb, hf, h⟩ := handleMsg_inv h
  obtain ⟨n, nets, d1, hn, he, h⟩ := networkMsg_inv h
  obtain ⟨pre, hpre⟩ := Dec.suffix_npdu _ _ _ hn
  simp only at hpre
  rcases h with h | ⟨a, d2, ha, h⟩
  · unfold networkEffects at h
    split_ifs at h <;> (try split at h) <;> simp at h
  · obtain ⟨rfl, hx⟩ := apduEffects_deliver h
    refine ⟨[t, f] ++ be16 l ++ pre, d1.buf, by rw [hb, hpre]; simp, by simp [be16], ?_, ?_⟩
    · rw [hb]
      rcases hf with rfl | rfl | rfl <;> simp
    rcases Dec.apdu_inv he ha with ⟨t, svc, raw, hbuf, ht, hdt, _⟩ | ⟨t, inv, svc, hbuf, ht, hdt, hi, _⟩ |
      ⟨t, b', inv, rest, hbuf, ht, hdt, hi, _⟩ | ⟨t, rest, hbuf, ht, hdt, hr⟩
    · rw [hdt] at hx; simp at hx
    · have htype : Spec.pduType d1.buf = some 2 ∨ Spec.pduType d1.buf = some 3 := by
        rw [hbuf]
        rcases ht with ht | ht
        · left; simp [Spec.pduType, (nib_facts t).1 ht]
        · right; simp [Spec.pduType, (nib_facts t).2.1 ht]
      refine ⟨Or.inl ⟨?_, by rw [hbuf, hi]; rfl⟩, ?_⟩
      · rcases htype with h | h <;> simp [h]
      · rcases hx with ⟨_, hx⟩ | ⟨hx, _⟩
        · left; refine ⟨hx, ?_⟩; rcases htype with h | h <;> simp [h]
        · rw [hdt] at hx; rcases ht with ht | ht <;> rw [ht] at hx <;> exact absurd hx (by decide)
    · have htype : Spec.pduType d1.buf = some 0 := by
        rw [hbuf]; simp [Spec.pduType, (nib_facts t).2.2.2.1 ht]
      refine ⟨Or.inr (Or.inl ⟨htype, by rw [hbuf, hi]; rfl⟩), ?_⟩
      rcases hx with ⟨_, hx⟩ | ⟨hx, _⟩
      · left; exact ⟨hx, by simp [htype]⟩
      · rw [hdt] at hx; exact absurd hx (by decide)
    · have htype : Spec.pduType d1.buf = some 5 := by
        rw [hbuf]; simp [Spec.pduType, (nib_facts t).2.2.1 ht]
      have hx' : x = .error a.errorClass a.errorCode := by
        rcases hx with ⟨hx, _⟩ | ⟨_, hx⟩
        · rw [hdt] at hx; simp at hx
        · exact hx
      refine ⟨?_, Or.inr ⟨⟨_, _, hx'⟩, htype⟩⟩
      rcases hr with ⟨hr, hi⟩ | ⟨r, hr⟩
      · right; right; exact ⟨hi, by rw [hbuf, hr]; rfl, htype⟩
      · left; exact ⟨by simp [htype], by rw [hbuf, hr]; rfl⟩

/-- Whether a call is a delivery to the transaction manager. -/
def isDelivery : Effect → Bool
  | .deliver _ _ => true
  | .publish _ _ => false

/-- C37: one datagram completes at most one pending request. -/
theorem C37_once (src : Address) (pending : UInt8 → Bool) (b : List UInt8) :
    ((handleMsg src pending b).1.filter isDelivery).length ≤ 1 := by
  have hne : ∀ n nets, (networkEffects n nets).1.filter isDelivery = [] := by
    intro n nets
    unfold networkEffects
    split_ifs <;> (try split) <;> rfl
  have hae : ∀ n send a, ((apduEffects src n pending send a).1.filter isDelivery).length ≤ 1 := by
    intro n send a
    unfold apduEffects
    split_ifs
    · split
      · split <;> simp [isDelivery]
      · simp
      · simp
    · split <;> simp
    · simp
    · exact Nat.le_refl 1
    · exact Nat.le_refl 1
    · simp
  have hnm : ∀ d, ((networkMsg src pending d).1.filter isDelivery).length ≤ 1 := by
    intro d
    unfold networkMsg
    split
    · split
      · simp
      · rename_i n nets err d1 _ _
        have hn := hne n nets
        split
        · rename_i es hes
          rw [hes] at hn
          split
          · split
            · simp only at hn ⊢; rw [hn]; simp
            · simp only [List.filter_append, List.length_append]
              simp only at hn
              rw [hn]
              simpa using hae _ _ _
          · simp only at hn ⊢; rw [hn]; simp
          · simp only at hn ⊢; rw [hn]; simp
        · rename_i es k hes
          rw [hes] at hn; simp only at hn ⊢; rw [hn]; simp
        · rename_i es hes
          rw [hes] at hn; simp only at hn ⊢; rw [hn]; simp
    · simp
    · simp
  unfold handleMsg
  split
  · split
    · simp
    · split
      · rename_i d _ _ _ 
        have := hnm d
        split
        · rename_i es r hes
          rw [hes] at this
          split <;> exact this
        · rename_i es r hes; rw [hes] at this; exact this
        · rename_i es hes; rw [hes] at this; exact this
      · simp
  · simp
  · simp

example : (handleMsg {} (fun _ => true) [0x81, 0x0A, 0, 9, 1, 0, 0x20, 5, 15]).1
    = [.deliver 5 (.apdu [0x20, 5, 15])] := by decide +kernel

end Bac.Props
