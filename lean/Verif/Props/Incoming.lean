import Verif.Props.Receive
/-!
# C38 - C40, C72, C75 - C77: datagrams that crash, get lost or are accepted
-/

namespace Bac.Props

open Spec (NetHeader NetAddr)

/-! ## C38 No datagram crashes the process -/

/-- C38 fails: a forwarded Who-Is of eight octets ends in a slice out of bounds,
and an I-Am that holds an empty character string in a panic of the decoder. -/
theorem C38_fails (src : Address) (pending : UInt8 → Bool) :
    handleMsg src pending [0x81, 4, 0, 8, 1, 0, 0x10, 8] = ([], .panic .sliceBounds) ∧
    (handleMsg src pending [0x81, 11, 0, 10, 1, 0, 0x10, 0, 0x70, 0]).2.Panics := by
  refine ⟨rfl, ?_⟩
  exact trivial

theorem total_whoIs : Total Dec.whoIs := by
  unfold Dec.whoIs
  refine Total.bind Dec.total_len fun n => Total.ite (Total.pure _) ?_
  refine Total.bind Dec.tagNumberAndValue_total.1 fun _ => Total.ite (Total.pure _) ?_
  refine Total.bind (Dec.unsigned_total _).1 fun _ => ?_
  refine Total.bind Dec.tagNumberAndValue_total.1 fun _ => Total.ite (Total.pure _) ?_
  refine Total.bind (Dec.unsigned_total _).1 fun _ => ?_
  exact Total.bind Dec.error_all.1 fun _ => Total.pure _

theorem noDiv_iAm : NoDiv Dec.iAm := by
  unfold Dec.iAm
  refine Dec.noDiv_appData.bind fun _ => NoDiv.ite (NoDiv.pure _) ?_
  refine Dec.noDiv_appData.bind fun _ => Dec.noDiv_appData.bind fun _ =>
    Dec.noDiv_appData.bind fun _ => Dec.error_all.1.noDiv.bind fun _ => NoDiv.pure _

theorem npdu_source {d d1 : Dec} {n : NPDU} {nets} {err}
    (h : Dec.npdu d = .ok ((n, nets, err), d1)) (hm : n.isNetworkLayerMessage = true)
    (ht : n.networkLayerMessageType = 0x13 ∨ n.networkLayerMessageType = 0x01) :
    ∃ s, n.source = some s := by
  unfold Dec.npdu at h
  obtain ⟨v, d2, h2, h⟩ := D.bind_inv h
  obtain ⟨m, d3, h3, h⟩ := D.bind_inv h
  obtain ⟨dst, d4, h4, h⟩ := D.bind_inv h
  obtain ⟨s, d5, h5, h⟩ := D.bind_inv h
  obtain ⟨hop, d6, h6, h⟩ := D.bind_inv h
  dsimp only at h
  split at h
  · obtain ⟨t, d7, h7, h⟩ := D.bind_inv h
    obtain ⟨ve, d8, h8, h⟩ := D.bind_inv h
    split at h
    · obtain ⟨net, d9, h9, h⟩ := D.bind_inv h
      obtain ⟨er, d10, h10, h⟩ := D.bind_inv h
      cases h; exact ⟨_, rfl⟩
    · split at h
      · obtain ⟨net, d9, h9, h⟩ := D.bind_inv h
        obtain ⟨net2, d9', h9', h⟩ := D.bind_inv h
        obtain ⟨er, d10, h10, h⟩ := D.bind_inv h
        cases h; exact ⟨_, rfl⟩
      · rename_i n13 n01
        obtain ⟨er, d10, h10, h⟩ := D.bind_inv h
        cases h
        rcases ht with ht | ht
        · exact absurd ht n13
        · exact absurd ht n01
  · rename_i hc
    obtain ⟨er, d10, h10, h⟩ := D.bind_inv h
    cases h
    exact absurd hm hc

theorem networkEffects_ok {d d1 : Dec} {n : NPDU} {nets} {err}
    (h : Dec.npdu d = .ok ((n, nets, err), d1)) : (networkEffects n nets).2 = .ok () := by
  unfold networkEffects
  split_ifs with h1 h2 h3
  · obtain ⟨s, hs⟩ := npdu_source h h1 (Or.inl h2); rw [hs]
  · obtain ⟨s, hs⟩ := npdu_source h h1 (Or.inr h3); rw [hs]
  · rfl
  · rfl

theorem apduEffects_end (src : Address) (n : NPDU) (pending : UInt8 → Bool) (send : List UInt8)
    (a : APDU) : (∃ r, (apduEffects src n pending send a).2 = .ok r) ∨
      (a.dataType = 0x10 ∧ a.unconfirmedService = 0 ∧ (Dec.iAm (Dec.new a.rawData)).Panics ∧
        ∃ k, (apduEffects src n pending send a).2 = .panic k) := by
  unfold apduEffects
  split_ifs with h1 h2 h3 h4 h5
  · cases h : Dec.iAm (Dec.new a.rawData) with
    | ok r => left; simp only; split <;> exact ⟨_, rfl⟩
    | panic k => right; exact ⟨h1, h2, trivial, _, rfl⟩
    | diverge => exact absurd h (noDiv_iAm _)
  · obtain ⟨r, d, h⟩ := total_whoIs (Dec.new a.rawData)
    rw [h]; exact Or.inl ⟨_, rfl⟩
  · exact Or.inl ⟨_, rfl⟩
  · exact Or.inl ⟨_, rfl⟩
  · exact Or.inl ⟨_, rfl⟩
  · exact Or.inl ⟨_, rfl⟩

theorem networkMsg_end (src : Address) (pending : UInt8 → Bool) (payload : List UInt8) (p : Option UInt8) :
    (∃ r, (networkMsg src pending ⟨payload, p, none⟩).2 = .ok r) ∨
    (∃ pre t raw, payload = pre ++ t :: 0 :: raw ∧ t.toNat / 16 = 1 ∧
      (Dec.iAm (Dec.new raw)).Panics ∧ ∃ k, (networkMsg src pending ⟨payload, p, none⟩).2 = .panic k) := by
  obtain ⟨⟨n, nets, err⟩, d1, hn⟩ := Dec.total_npdu ⟨payload, p, none⟩
  have herr := Dec.reports_npdu _ _ _ hn
  obtain ⟨pre, hpre⟩ := Dec.suffix_npdu _ _ _ hn
  simp only at hpre herr
  unfold networkMsg
  rw [hn]
  cases err with
  | some e => left; exact ⟨_, rfl⟩
  | none =>
    have hok := networkEffects_ok hn
    simp only [Option.isSome_none, Bool.false_eq_true, if_false]
    cases hne : networkEffects n nets with
    | mk es o =>
      rw [hne] at hok
      simp only at hok
      subst hok
      obtain ⟨⟨a, e2⟩, d2, ha⟩ := Dec.total_apdu d1
      simp only [ha]
      cases e2 with
      | some x => left; exact ⟨_, rfl⟩
      | none =>
        simp only [Option.isSome_none, Bool.false_eq_true, if_false]
        rcases apduEffects_end src n pending d1.buf a with h | ⟨h1, h2, h3, h4⟩
        · exact Or.inl h
        · right
          rcases Dec.apdu_inv herr.symm ha with ⟨t, svc, raw, hbuf, ht, hdt, hsvc, hraw, _⟩ |
            ⟨t, inv, svc, hbuf, ht, hdt, _⟩ | ⟨t, b', inv, rest, hbuf, ht, hdt, _⟩ | ⟨t, rest, hbuf, ht, hdt, hr⟩
          · rw [h2] at hsvc; subst hsvc
            rw [hraw] at h3
            exact ⟨pre, t, raw, by rw [hpre, hbuf], (nib_facts t).2.2.2.2 ht, h3, h4⟩
          · rw [h1] at hdt
            rcases ht with ht | ht <;> rw [ht] at hdt <;> exact absurd hdt (by decide)
          · rw [h1] at hdt; exact absurd hdt (by decide)
          · rw [h1] at hdt; exact absurd hdt (by decide)

theorem be16_rd16 (x y : UInt8) : be16 (rd16 x y) = [x, y] := by
  have h1 := rd16_toNat x y
  have hx := x.toNat_lt
  have hy := y.toNat_lt
  unfold be16
  congr 1
  · apply UInt8.toNat_inj.mp
    simp [Nat.shiftRight_eq_div_pow, h1]; omega
  · congr 1
    apply UInt8.toNat_inj.mp
    simp [h1]

/-- C38, what does hold: the receive path returns for every datagram, except for
forwarded frames shorter than 14 octets and for datagrams that end in an I-Am whose
parameters crash the value decoder (characterised by C09). -/
theorem C38_partial (src : Address) (pending : UInt8 → Bool) (b : List UInt8) :
    (handleMsg src pending b).2 = .ok () ∨
    (b[1]? = some 4 ∧ b.length < 14 ∧ (handleMsg src pending b).2 = .panic .sliceBounds) ∨
    (∃ pre t raw, b = pre ++ t :: 0 :: raw ∧ t.toNat / 16 = 1 ∧
      (Dec.iAm (Dec.new raw)).Panics ∧ ∃ k, (handleMsg src pending b).2 = .panic k) := by
  by_cases hlen : 4 ≤ b.length
  · obtain ⟨t, f, x, y, payload, rfl⟩ : ∃ t f x y payload, b = t :: f :: x :: y :: payload := by
      match b, hlen with
      | t :: f :: x :: y :: payload, _ => exact ⟨t, f, x, y, payload, rfl⟩
    obtain ⟨l, hl⟩ : ∃ l : UInt16, be16 l = [x, y] := ⟨rd16 x y, be16_rd16 x y⟩
    have hb : t :: f :: x :: y :: payload = [t, f] ++ be16 l ++ payload := by rw [hl]; rfl
    rw [hb]
    by_cases hf : f = 11 ∨ f = 10 ∨ f = 4
    · obtain ⟨p, hp⟩ := handleMsg_run src pending t f l payload hf
      rw [hp]
      have hl4 : ([t, f] ++ be16 l ++ payload).length = 4 + payload.length := by rw [hl]; simp; omega
      have h1 : ([t, f] ++ be16 l ++ payload)[1]? = some f := rfl
      rw [hl4, h1]
      rcases networkMsg_end src pending payload p with ⟨r, hr⟩ | ⟨pre, t', raw, hpay, ht', hpan, k, hk⟩
      · cases hnm : networkMsg src pending ⟨payload, p, none⟩ with
        | mk es o =>
          rw [hnm] at hr
          simp only at hr
          subst hr
          simp only [endedFor]
          split
          · rename_i hc
            right; left
            exact ⟨by rw [hc.2.1], by omega, rfl⟩
          · left; rfl
      · right; right
        refine ⟨[t, f] ++ be16 l ++ pre, t', raw, by rw [hpay]; simp, ht', hpan, k, ?_⟩
        cases hnm : networkMsg src pending ⟨payload, p, none⟩ with
        | mk es o =>
          rw [hnm] at hk
          simp only at hk
          subst hk
          rfl
    · left
      rw [handleMsg_other src pending t f l payload hf]
  · left
    obtain ⟨⟨hd, err⟩, d, hb⟩ := Dec.total_bvlc (Dec.new b)
    have herr := Dec.reports_bvlc _ _ _ hb
    unfold handleMsg
    rw [hb]
    simp only at herr ⊢
    cases err with
    | some x => rfl
    | none =>
      exfalso
      have htook := (Took.bind Dec.took_u8 fun t => Took.bind Dec.took_u8 fun f =>
        Took.bind Dec.took_u16 fun l => Took.bind Dec.took_error fun er =>
        Took.pure ((⟨t, f, l, []⟩ : BVLC), er)) _ _ _ hb herr.symm
      obtain ⟨_, bs, hbs, t, x, y, rfl, rfl, f, x, y, rfl, rfl, l, x, y, rfl, rfl, er, x, y, rfl, rfl, hp, rfl⟩ := htook
      have := congrArg List.length hbs
      simp [Dec.new, be16] at this
      omega

/-- C38, the crash is reachable for every legal network header: an I-Am crashes
the receive path exactly when its parameters crash the value decoder. -/
theorem C38_iam_exact (src : Address) (pending : UInt8 → Bool) (h : NetHeader) (hok : h.Ok)
    (f : UInt8) (hf : f = 10 ∨ f = 11) (params : List UInt8) :
    (handleMsg src pending (Spec.frame f (h.octets ++ Spec.unconfirmedHeader 0 ++ params))).2.Panics ↔
      (Dec.iAm (Dec.new params)).Panics := by
  obtain ⟨l, hl⟩ := frame_octets f (h.octets ++ Spec.unconfirmedHeader 0 ++ params)
  rw [hl]
  obtain ⟨p, hp⟩ := handleMsg_frame src pending 0x81 f l (h.octets ++ Spec.unconfirmedHeader 0 ++ params) hf
  rw [hp]
  obtain ⟨a, d, ha, h1, h2, h3⟩ := Dec.apdu_unconfirmed_run 0x10 0 params (lastOr p h.octets) (by decide)
  have := networkMsg_of src pending h.octets ([0x10, 0] ++ params) (receivedHeader h) (header_parses h hok) rfl ha
  rw [show h.octets ++ Spec.unconfirmedHeader 0 ++ params = h.octets ++ ([0x10, 0] ++ params) by
    rw [List.append_assoc]; rfl, this]
  simp only [Option.isSome_none, Bool.false_eq_true, if_false, apduEffects, h1, h2, h3, if_true]
  cases hi : Dec.iAm (Dec.new params) with
  | ok r => simp only; split <;> simp [ended, Outcome.Panics]
  | panic k => simp [ended, Outcome.Panics]
  | diverge => exact absurd hi (noDiv_iAm _)

example : (Dec.iAm (Dec.new [0x70, 0])).Panics := trivial

/-! ## C75 A direct I-Am is published once -/

/-- The address a device behind (or not behind) a router is recorded with: the
sender's, with network number and hardware address of the station, if given. -/
def C75_address (src : Address) (h : NetHeader) : Address :=
  match h.src with
  | none => src
  | some s => { src with net := UInt16.ofNat s.net, adr := if s.adr = [] then src.adr else s.adr }

/-- C75.  With every legal network header, an I-Am is published exactly once, under
its device instance, with the four values it carries and the address of the sender
(for a routed device: its network number and hardware address as well). -/
theorem C75_direct (src : Address) (pending : UInt8 → Bool) (h : NetHeader) (hok : h.Ok)
    (f : UInt8) (hf : f = 10 ∨ f = 11) (i : IAm) (hi : C04_Valid i.id) :
    handleMsg src pending (Spec.frame f (h.octets ++ Spec.iAm i.id.typ.toNat i.id.inst.toNat
        i.maxApdu.toNat i.segmentation.toNat i.vendor.toNat)) =
      ([.publish i.id.inst.toNat (.iam { i with addr := C75_address src h })], .ok ()) := by
  obtain ⟨body, d', _, hbody, hdec⟩ := C23_iam i hi
  rw [← hbody]
  obtain ⟨l, hl⟩ := frame_octets f (h.octets ++ (Spec.unconfirmedHeader 0 ++ body))
  rw [hl]
  obtain ⟨p, hp⟩ := handleMsg_frame src pending 0x81 f l (h.octets ++ (Spec.unconfirmedHeader 0 ++ body)) hf
  rw [hp]
  obtain ⟨a, d, ha, h1, h2, h3⟩ := Dec.apdu_unconfirmed_run 0x10 0 body (lastOr p h.octets) (by decide)
  have := networkMsg_of src pending h.octets ([0x10, 0] ++ body) (receivedHeader h) (header_parses h hok) rfl ha
  rw [show Spec.unconfirmedHeader 0 ++ body = [0x10, 0] ++ body from rfl, this]
  simp only [Option.isSome_none, Bool.false_eq_true, if_false, apduEffects, h1, h2, h3, if_true, hdec]
  have haddr : iamAddress src (receivedHeader h) = C75_address src h := by
    obtain ⟨_, _, _, hs⟩ := hok
    unfold iamAddress receivedHeader C75_address
    cases hsrc : h.src with
    | none => rfl
    | some s =>
      obtain ⟨g1, g2, g3⟩ := hs s hsrc
      have hn : (0 : UInt16) < UInt16.ofNat s.net := by
        rw [UInt16.lt_iff_toNat_lt]; simp; omega
      simp only [Option.map_some, netAddress, gt_iff_lt, hn, if_true]
      cases s.adr with
      | nil => rfl
      | cons x xs => rfl
  rw [haddr]
  rfl

/-- C75 fails for routed devices: the recorded length is the sender's (0 for UDP),
not the length of the hardware address recorded next to it. -/
theorem C75_fails_length (src : Address) (pending : UInt8 → Bool) (h : NetHeader) (hok : h.Ok)
    (f : UInt8) (hf : f = 10 ∨ f = 11) (i : IAm) (hi : C04_Valid i.id) (s : NetAddr)
    (hs : h.src = some s) (hne : s.adr ≠ []) (hl : src.len = 0) :
    ∃ a, handleMsg src pending (Spec.frame f (h.octets ++ Spec.iAm i.id.typ.toNat i.id.inst.toNat
        i.maxApdu.toNat i.segmentation.toNat i.vendor.toNat)) =
      ([.publish i.id.inst.toNat (.iam { i with addr := a })], .ok ()) ∧
      a.adr = s.adr ∧ a.len.toNat ≠ a.adr.length := by
  refine ⟨_, C75_direct src pending h hok f hf i hi, ?_, ?_⟩
  · simp [C75_address, hs, hne]
  · cases hadr : s.adr with
    | nil => exact absurd hadr hne
    | cons x xs => simp [C75_address, hs, hadr, hl]

example : (handleMsg { mac := [192, 168, 1, 9, 0xBA, 0xC0] } (fun _ => false)
    ([0x81, 0x0B, 0, 25, 1, 0x08, 0, 7, 1, 42, 0x10, 0, 0xC4, 2, 0, 0, 9, 0x22, 1, 0xE0, 0x91, 0, 0x21, 8])).1
    = [.publish 9 (.iam ⟨⟨8, 9⟩, 480, 0, 8, { net := 7, mac := [192, 168, 1, 9, 0xBA, 0xC0], adr := [42] }⟩)] := by
  decide +kernel

/-! ## C39 Forwarded I-Am -/

/-- C39 fails: when the originator's address is a.0.c.d with c outside 16..31 (say
10.0.0.5), nothing in the forwarded frame is ever published, while the same I-Am
received directly is (`C75_direct`). -/
theorem C39_fails (src : Address) (pending : UInt8 → Bool) (a c d p1 p2 : UInt8)
    (hc : c.toNat / 16 ≠ 1) (npdu : List UInt8) (id : Int) (x : Published) :
    Effect.publish id x ∉ (handleMsg src pending (Spec.forwarded (a, 0, c, d) (p1, p2) npdu)).1 := by
  intro hmem
  unfold Spec.forwarded at hmem
  obtain ⟨l, hl⟩ := frame_octets 4 ([a, 0, c, d, p1, p2] ++ npdu)
  simp only at hmem
  rw [hl] at hmem
  obtain ⟨p, hp⟩ := handleMsg_run src pending 0x81 4 l ([a, 0, c, d, p1, p2] ++ npdu) (by simp)
  rw [hp, endedFor_fst] at hmem
  obtain ⟨⟨ap, err⟩, d2, ha⟩ := Dec.total_apdu ⟨[c, d, p1, p2] ++ npdu, lastOr p [a, 0], none⟩
  have := networkMsg_of src pending [a, 0] ([c, d, p1, p2] ++ npdu) _
    (Dec.parses_npdu_plain a 0 rfl rfl rfl) rfl ha
  rw [show [a, 0, c, d, p1, p2] ++ npdu = [a, 0] ++ ([c, d, p1, p2] ++ npdu) from rfl, this] at hmem
  split at hmem
  · simp at hmem
  · rename_i hn
    have hn' : err = none := by cases err with | none => rfl | some e => exact absurd rfl hn
    subst hn'
    have h10 : ap.dataType ≠ 0x10 := by
      intro h1
      rcases Dec.apdu_inv rfl ha with ⟨t, svc, raw, hbuf, ht, hdt, hsvc, hraw, _⟩ |
        ⟨t, inv, svc, hbuf, ht, hdt, _⟩ | ⟨t, b', inv, rest, hbuf, ht, hdt, _⟩ | ⟨t, rest, hbuf, ht, hdt, hr⟩
      · have : c = t := by simpa using (List.cons.inj hbuf).1
        subst this
        exact hc ((nib_facts c).2.2.2.2 ht)
      · rw [h1] at hdt
        rcases ht with ht | ht <;> rw [ht] at hdt <;> exact absurd hdt (by decide)
      · rw [h1] at hdt; exact absurd hdt (by decide)
      · rw [h1] at hdt; exact absurd hdt (by decide)
    unfold apduEffects at hmem
    rw [if_neg h10] at hmem
    split_ifs at hmem <;> simp at hmem

theorem sticky_address : Sticky Dec.address :=
  Dec.u16_all.2.1.bind fun _ => Dec.u8_all.2.1.bind fun _ => (Dec.bytes_all _).2.1.bind fun _ => Sticky.pure _

theorem sticky_u16Into (x : UInt16) : Sticky (Dec.u16Into x) := by
  unfold Dec.u16Into
  refine (Dec.sticky_readN 2).bind fun r => ?_
  split <;> exact Sticky.pure _

/-- C39 fails: a frame forwarded for any originator 192.168.c.d with the standard
port 47808 (0xBAC0) is dropped without any effect, whatever it contains, as long as
the relayed message has fewer than 185 octets. -/
theorem C39_fails_private (src : Address) (pending : UInt8 → Bool) (c d : UInt8) (npdu : List UInt8)
    (hlen : npdu.length < 185) :
    (handleMsg src pending (Spec.forwarded (192, 168, c, d) (0xBA, 0xC0) npdu)).1 = [] := by
  by_contra hne
  obtain ⟨e, he⟩ := List.exists_mem_of_ne_nil _ hne
  unfold Spec.forwarded at he
  obtain ⟨l, hl⟩ := frame_octets 4 ([192, 168, c, d, 0xBA, 0xC0] ++ npdu)
  simp only at he
  rw [hl] at he
  obtain ⟨p, hp⟩ := handleMsg_run src pending 0x81 4 l ([192, 168, c, d, 0xBA, 0xC0] ++ npdu) (by simp)
  rw [hp, endedFor_fst] at he
  obtain ⟨n, nets, d1, hn, herr, _⟩ := networkMsg_inv he
  unfold Dec.npdu at hn
  rw [show [192, 168, c, d, 0xBA, 0xC0] ++ npdu = [192] ++ ([168] ++ ([c, d] ++ ([0xBA] ++ (0xC0 :: npdu)))) from rfl,
    D.run_bind (Dec.parses_u8 _ _ _), D.run_bind (Dec.parses_u8 _ _ _)] at hn
  obtain ⟨dst, d2, h2, hn⟩ := D.bind_inv hn
  have hfail : d2.Failed := by
    unfold Dec.optAddress at h2
    rw [if_pos (by decide)] at h2
    obtain ⟨ad, d3, h3, h2⟩ := D.bind_inv h2
    cases h2
    unfold Dec.address at h3
    rw [D.run_bind (Dec.parses_u16 _ _ _ _), D.run_bind (Dec.parses_u8 _ _ _)] at h3
    obtain ⟨bs, d4, h4, h3⟩ := D.bind_inv h3
    cases h3
    obtain ⟨a', d', hb, hf⟩ := (Dec.bytes_all (0xBA : UInt8).toNat).2.2.2
      ⟨0xC0 :: npdu, _, none⟩ rfl (by simp; omega)
    rw [hb] at h4
    cases h4
    exact hf
  have hst : ∀ {α : Type} {m : D α} {a : α} {d' : Dec}, Sticky m → m d2 = .ok (a, d') → d'.Failed :=
    fun hs h => hs.1 _ _ _ hfail h
  have : d1.Failed := by
    refine hst ?_ hn
    unfold Dec.optAddress Dec.optU8 Dec.optU16
    repeat' first
      | exact Sticky.pure _
      | exact Dec.u8_all.2.1 | exact Dec.u16_all.2.1 | exact Dec.error_all.2
      | exact sticky_address | exact sticky_u16Into _
      | (refine Sticky.bind ?_ fun _ => ?_)
      | dsimp only
      | split
  exact absurd herr this.1

/-! ## C40 Reject and Abort -/

/-- C40 fails for every Reject and every Abort: nothing is delivered to anybody,
the caller waits for its time-out. -/
theorem C40_fails (src : Address) (pending : UInt8 → Bool) (h : NetHeader) (hok : h.Ok)
    (f : UInt8) (hf : f = 10 ∨ f = 11) (invoke reason : UInt8) (server : Bool) :
    handleMsg src pending (Spec.frame f (h.octets ++ Spec.reject invoke reason)) = ([], .ok ()) ∧
    handleMsg src pending (Spec.frame f (h.octets ++ Spec.abort server invoke reason)) = ([], .ok ()) := by
  have key : ∀ t rest, (t &&& 0xF0 = 0x60 ∨ t &&& 0xF0 = 0x70) →
      handleMsg src pending (Spec.frame f (h.octets ++ t :: rest)) = ([], .ok ()) := by
    intro t rest ht
    obtain ⟨l, hl⟩ := frame_octets f (h.octets ++ t :: rest)
    obtain ⟨p, hp⟩ := handleMsg_frame src pending 0x81 f l (h.octets ++ t :: rest) hf
    rw [hl, hp]
    obtain ⟨a, d, e, ha⟩ := Dec.apdu_unsupported_run t rest (lastOr p h.octets)
      (by rcases ht with ht | ht <;> simp [ht])
    rw [networkMsg_of src pending h.octets (t :: rest) (receivedHeader h) (header_parses h hok) rfl ha]
    rfl
  refine ⟨key 0x60 _ (by decide), ?_⟩
  cases server
  · exact key 0x70 _ (by decide)
  · exact key 0x71 _ (by decide)

/-! ## C72 Every answer reaches the request it belongs to -/

/-- C72 for acknowledgements: with every legal network header, a SimpleACK or
ComplexACK is delivered, once and unchanged, to the request with its invoke id. -/
theorem C72_acks (src : Address) (pending : UInt8 → Bool) (h : NetHeader) (hok : h.Ok)
    (f : UInt8) (hf : f = 10 ∨ f = 11) (invoke service : UInt8) (data : List UInt8) :
    handleMsg src pending (Spec.frame f (h.octets ++ Spec.simpleAck invoke service)) =
      ([.deliver invoke (.apdu (Spec.simpleAck invoke service))], .ok ()) ∧
    handleMsg src pending (Spec.frame f (h.octets ++ Spec.complexAck invoke service data)) =
      ([.deliver invoke (.apdu (Spec.complexAck invoke service data))], .ok ()) := by
  have key : ∀ t rest, (t = 0x20 ∨ t = 0x30) →
      handleMsg src pending (Spec.frame f (h.octets ++ ([t, invoke, service] ++ rest))) =
        ([.deliver invoke (.apdu ([t, invoke, service] ++ rest))], .ok ()) := by
    intro t rest ht
    obtain ⟨l, hl⟩ := frame_octets f (h.octets ++ ([t, invoke, service] ++ rest))
    obtain ⟨p, hp⟩ := handleMsg_frame src pending 0x81 f l (h.octets ++ ([t, invoke, service] ++ rest)) hf
    rw [hl, hp]
    have htt : t &&& 0xF0 = 0x30 ∨ t &&& 0xF0 = 0x20 := by rcases ht with rfl | rfl <;> decide
    have ha := Dec.parses_ack t invoke service htt (lastOr p h.octets) rest
    rw [networkMsg_of src pending h.octets ([t, invoke, service] ++ rest) (receivedHeader h) (header_parses h hok) rfl ha,
      apduEffects_octets _ _ _ _ _ (by rcases htt with e | e <;> simp [e])]
    rfl
  refine ⟨?_, key 0x30 data (Or.inr rfl)⟩
  exact key 0x20 [] (Or.inl rfl)

/-- C72 for errors: a standard Error PDU is delivered, once and as an error, to the
request with its invoke id (what class and code it carries is C21). -/
theorem C72_errors (src : Address) (pending : UInt8 → Bool) (h : NetHeader) (hok : h.Ok)
    (f : UInt8) (hf : f = 10 ∨ f = 11) (invoke service cls code : UInt8) :
    ∃ c k, handleMsg src pending (Spec.frame f (h.octets ++ Spec.errorPdu invoke service cls code)) =
      ([.deliver invoke (.error c k)], .ok ()) := by
  obtain ⟨l, hl⟩ := frame_octets f (h.octets ++ Spec.errorPdu invoke service cls code)
  obtain ⟨p, hp⟩ := handleMsg_frame src pending 0x81 f l (h.octets ++ Spec.errorPdu invoke service cls code) hf
  rw [hl, hp]
  obtain ⟨a, e, d, ha, h1, h2⟩ := Dec.apdu_error_run 0x50 invoke [service, 0x91, cls, 0x91, code]
    (lastOr p h.octets) (by decide)
  have he : e = none := by
    have ha' := ha
    unfold Dec.apdu at ha'
    rw [show (0x50 :: invoke :: [service, 0x91, cls, 0x91, code] : List UInt8) =
      [0x50] ++ ([invoke] ++ ([service] ++ ([0x91] ++ [cls, 0x91, code]))) from rfl,
      D.run_bind (Dec.parses_u8 _ _ _)] at ha'
    rw [if_neg (by decide), if_neg (by decide), if_neg (by decide), if_pos (by decide)] at ha'
    unfold Dec.apduError at ha'
    have tn : Parses Dec.tagNumber [0x91] (9, 0x91) := by
      unfold Dec.tagNumber
      refine Parses.bind' (Dec.parses_u8 _) ?_
      rw [if_neg (by decide)]
      exact Parses.pure _
    rw [D.run_bind (Dec.parses_u8 _ _ _), D.run_bind (Dec.parses_u8 _ _ _), D.run_bind (tn _ _)] at ha'
    dsimp only at ha'
    rw [if_neg (by decide)] at ha'
    obtain ⟨x1, d4, h4, ha'⟩ := D.bind_inv ha'
    obtain ⟨x2, d5, h5, ha'⟩ := D.bind_inv ha'
    cases ha'
    rfl
  subst he
  have hnm := networkMsg_of src pending h.octets (Spec.errorPdu invoke service cls code) (receivedHeader h)
    (header_parses h hok) rfl ha
  rw [hnm, apduEffects_error _ _ _ _ _ h1, h2]
  exact ⟨_, _, rfl⟩

/-! ## C77 Segments -/

/-- C77 fails: every segment of a segmented answer is delivered as if it were the
whole answer (the sequence number is then read as the service). -/
theorem C77_fails (src : Address) (pending : UInt8 → Bool) (h : NetHeader) (hok : h.Ok)
    (f : UInt8) (hf : f = 10 ∨ f = 11) (more : Bool) (invoke seqNo window service : UInt8) (data : List UInt8) :
    let apdu := Spec.complexAckSegment more invoke seqNo window service data
    handleMsg src pending (Spec.frame f (h.octets ++ apdu)) = ([.deliver invoke (.apdu apdu)], .ok ()) := by
  intro apdu
  have e : ∃ t, t &&& 0xF0 = 0x30 ∧ apdu = [t, invoke, seqNo] ++ ([window, service] ++ data) := by
    cases more
    · exact ⟨0x38, by decide, rfl⟩
    · exact ⟨0x3C, by decide, rfl⟩
  obtain ⟨t, ht, e⟩ := e
  rw [e]
  obtain ⟨l, hl⟩ := frame_octets f (h.octets ++ ([t, invoke, seqNo] ++ ([window, service] ++ data)))
  obtain ⟨p, hp⟩ := handleMsg_frame src pending 0x81 f l _ hf
  rw [hl, hp]
  have ha := Dec.parses_ack t invoke seqNo (Or.inl ht) (lastOr p h.octets) ([window, service] ++ data)
  rw [networkMsg_of src pending h.octets _ (receivedHeader h) (header_parses h hok) rfl ha,
    apduEffects_octets _ _ _ _ _ (by simp [ht])]
  rfl

/-! ## C76 Frames that are not BACnet/IP frames of the announced length -/

/-- C76 fails: a SimpleACK is delivered whatever the type octet (0x81 for
BACnet/IP) and the length field of its frame say. -/
theorem C76_fails (src : Address) (pending : UInt8 → Bool) (t f : UInt8) (l : UInt16)
    (hf : f = 10 ∨ f = 11) (h : NetHeader) (hok : h.Ok) (invoke service : UInt8) :
    handleMsg src pending ([t, f] ++ be16 l ++ (h.octets ++ Spec.simpleAck invoke service))
      = ([.deliver invoke (.apdu (Spec.simpleAck invoke service))], .ok ()) := by
  obtain ⟨p, hp⟩ := handleMsg_frame src pending t f l (h.octets ++ Spec.simpleAck invoke service) hf
  rw [hp]
  have ha := Dec.parses_ack 0x20 invoke service (Or.inr rfl) (lastOr p h.octets) []
  have := networkMsg_of src pending h.octets ([0x20, invoke, service] ++ []) (receivedHeader h) (header_parses h hok) rfl ha
  rw [show Spec.simpleAck invoke service = [0x20, invoke, service] ++ [] from rfl, this,
    apduEffects_octets _ _ _ _ _ (Or.inl rfl)]
  rfl

/-- C76, what does hold: a frame with another function than broadcast, unicast or
forwarded is ignored, and so is one cut within its first four octets. -/
theorem C76_partial (src : Address) (pending : UInt8 → Bool) (b : List UInt8)
    (h : b.length < 4 ∨ ∃ f, b[1]? = some f ∧ f ≠ 4 ∧ f ≠ 10 ∧ f ≠ 11) :
    (handleMsg src pending b).1 = [] := by
  by_contra hne
  obtain ⟨e, he⟩ := List.exists_mem_of_ne_nil _ hne
  obtain ⟨t, f, l, payload, p, rfl, hf, _⟩ := handleMsg_inv he
  rcases h with h | ⟨g, hg, h4, h10, h11⟩
  · simp [be16] at h; omega
  · simp at hg
    subst hg
    rcases hf with rfl | rfl | rfl <;> contradiction

end Bac.Props
