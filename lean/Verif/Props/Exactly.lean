import Verif.Props.Network
import Verif.Props.DataLink
import Verif.Props.Discovery
/-!
# C39, C87, C95 - C98, C101: which routers are found, what the receive loop survives, how forwarded frames are read, which answers fit, and which numbers are exact
-/

namespace Bac.Props

open Spec (NetHeader RealIs realTimes2p150 realError NearestReal)

/-! ## C39 exactly -/

/-- C39, exactly: a forwarded frame is read as if its sender had broadcast a message that begins with the six octets of the
originator.  Apart from that it can crash, if the message relayed has fewer than four octets (`C38_fails`). -/
theorem C39_exact (src : Address) (pending : UInt8 → Bool) (a b c d p1 p2 : UInt8) (npdu : List UInt8) :
    (handleMsg src pending (Spec.forwarded (a, b, c, d) (p1, p2) npdu)).1 =
        (handleMsg src pending (Spec.frame 11 ([a, b, c, d, p1, p2] ++ npdu))).1 ∧
      (4 ≤ npdu.length → handleMsg src pending (Spec.forwarded (a, b, c, d) (p1, p2) npdu) =
        handleMsg src pending (Spec.frame 11 ([a, b, c, d, p1, p2] ++ npdu))) := by
  show (handleMsg src pending (Spec.frame 4 ([a, b, c, d, p1, p2] ++ npdu))).1 = _ ∧
    (4 ≤ npdu.length → handleMsg src pending (Spec.frame 4 ([a, b, c, d, p1, p2] ++ npdu)) = _)
  have hlen : ([a, b, c, d, p1, p2] ++ npdu).length = 6 + npdu.length := by simp; omega
  generalize [a, b, c, d, p1, p2] ++ npdu = payload at *
  obtain ⟨l, hl⟩ := frame_octets 4 payload
  have hbe : Spec.bigEndian 2 (4 + payload.length) = be16 l := List.append_cancel_left (List.append_cancel_right hl)
  obtain ⟨q, hq⟩ : ∃ q, ∀ f : UInt8, f = 11 ∨ f = 10 ∨ f = 4 → handleMsg src pending (Spec.frame f payload) =
      endedFor f payload.length (networkMsg src pending ⟨payload, q, none⟩) := by
    refine ⟨lastOr none (be16 l), fun f hf => ?_⟩
    unfold Spec.frame
    rw [hbe]
    have hb := Dec.parses_bvlc 0x81 f l none payload
    have hlast : lastOr none ([0x81, f] ++ be16 l) = lastOr none (be16 l) := rfl
    rw [hlast] at hb
    unfold handleMsg Dec.new
    rw [hb]
    simp only [Option.isSome_none, Bool.false_eq_true, if_false]
    rw [if_pos hf]
    have hlen : ([0x81, f] ++ be16 l ++ payload).length - 4 = payload.length := by simp [be16]
    rw [hlen]
    rfl
  rw [hq 4 (by simp), hq 11 (by simp), endedFor_fst, endedFor_fst]
  refine ⟨rfl, fun h4 => ?_⟩
  generalize networkMsg src pending ⟨payload, q, none⟩ = r
  obtain ⟨es, o⟩ := r
  cases o with
  | ok x =>
    simp only [endedFor]
    rw [if_neg (by omega), if_neg (by rintro ⟨_, h, _⟩; exact absurd h (by decide))]
  | panic k => rfl
  | diverge => rfl

/-- A forwarded I-Am of device 9 from 10.0.16.5: taken for a message with the header 10, 0 and the type 0x10. -/
example : (handleMsg {} (fun _ => false) (Spec.forwarded (10, 0, 16, 0) (0xBA, 0xC0) ([1, 0] ++ Spec.iAm 8 9 480 3 15))).1 =
    (handleMsg {} (fun _ => false) (Spec.frame 11 ([10, 0, 16, 0, 0xBA, 0xC0] ++ ([1, 0] ++ Spec.iAm 8 9 480 3 15)))).1 :=
  (C39_exact ..).1

/-! ## C95 exactly -/

/-- C95, exactly which acknowledgements reach the request whole: with buffers that hold at least the headers, those that fit
in them. -/
theorem C95_exact (pending : UInt8 → Bool) (a b c d : UInt8) (port : Nat) (hport : port < 65536)
    (h : NetHeader) (hok : h.Ok) (f : UInt8) (hf : f = 10 ∨ f = 11) (invoke service : UInt8)
    (data : List UInt8) (maxPDU : UInt16) (more : List Incoming) (hb : 7 + h.octets.length ≤ bufferSize maxPDU) :
    (∃ src octets rest, (clientRun (bufferSize maxPDU)
        (.datagram (ipv4 a b c d) port (Spec.frame f (h.octets ++ Spec.complexAck invoke service data)) :: more)).1 =
          (src, octets) :: rest ∧
      handleMsg src pending octets = ([.deliver invoke (.apdu (Spec.complexAck invoke service data))], .ok ())) ↔
    4 + h.octets.length + 3 + data.length ≤ bufferSize maxPDU := by
  refine ⟨?_, C95_partial pending a b c d port hport h hok f hf invoke service data maxPDU more⟩
  rintro ⟨src, octets, rest, hrun, hdel⟩
  obtain ⟨A, hA, _⟩ := udpToAddress_quad a b c d port hport
  obtain ⟨l, hl⟩ := frame_octets f (h.octets ++ Spec.complexAck invoke service data)
  generalize hN : bufferSize maxPDU = N at *
  by_contra hnot
  have hcut : (Spec.frame f (h.octets ++ Spec.complexAck invoke service data)).take N =
      [0x81, f] ++ be16 l ++ (h.octets ++ ([0x30, invoke, service] ++ data.take (N - (7 + h.octets.length)))) := by
    rw [hl, show Spec.complexAck invoke service data = [0x30, invoke, service] ++ data from rfl]
    have e : ∀ t : List UInt8, [0x81, f] ++ be16 l ++ (h.octets ++ ([0x30, invoke, service] ++ t)) =
        ([0x81, f] ++ be16 l ++ h.octets ++ [0x30, invoke, service]) ++ t := by simp
    have hn : ([0x81, f] ++ be16 l ++ h.octets ++ [0x30, invoke, service]).length = 7 + h.octets.length := by
      simp [be16]
      omega
    rw [e, e, List.take_append, hn, List.take_of_length_le (by omega)]
  have hrun' : (clientRun N (.datagram (ipv4 a b c d) port (Spec.frame f (h.octets ++ Spec.complexAck invoke service data)) :: more)).1 =
      (A, (Spec.frame f (h.octets ++ Spec.complexAck invoke service data)).take N) :: (clientRun N more).1 := by
    simp only [clientRun, to4_ipv4, hA]
  rw [hrun'] at hrun
  injection hrun with h1 _
  injection h1 with h1 h2
  subst h1
  rw [← h2, hcut] at hdel
  have := (deliver_complexAck A pending h hok f hf l invoke service (data.take (N - (7 + h.octets.length)))).symm.trans hdel
  injection this with this _
  injection this with this _
  injection this with _ this
  injection this with this
  have := congrArg List.length this
  simp only [Spec.complexAck, List.length_append, List.length_take, List.length_cons] at this
  omega

/-- With buffers of 64 octets: an answer of 55 octets behind a header of two fits; one of 58 does not. -/
example : (4 + [(1 : UInt8), 0].length + 3 + (List.replicate 55 (0 : UInt8)).length ≤ bufferSize 64) ∧
    ¬ 4 + [(1 : UInt8), 0].length + 3 + (List.replicate 58 (0 : UInt8)).length ≤ bufferSize 64 := by decide

/-! ## C96 and C97 exactly -/

/-- A datagram of an IPv4 sender, whose address has four octets, or sixteen of which the first twelve are those of a mapped
address. -/
def C97_Good (x : Incoming) : Prop :=
  ∃ a b c d port octets, x = .datagram [a, b, c, d] port octets ∨ x = .datagram (ipv4 a b c d) port octets

theorem clientRun_good (size : Nat) {x : Incoming} (h : C97_Good x) (rest : List Incoming) :
    ∃ A octets, clientRun size (x :: rest) = ((A, octets) :: (clientRun size rest).1, (clientRun size rest).2) ∧
      ∃ ip port all, x = .datagram ip port all ∧ octets = all.take size := by
  obtain ⟨a, b, c, d, port, octets, rfl | rfl⟩ := h
  · exact ⟨_, _, rfl, _, _, _, rfl, rfl⟩
  · obtain ⟨A, hA⟩ : ∃ A, udpToAddress [a, b, c, d] port = .ok A := ⟨_, rfl⟩
    refine ⟨A, _, ?_, _, _, _, rfl, rfl⟩
    simp only [clientRun, to4_ipv4, hA]

theorem clientRun_bad (size : Nat) {ip : List UInt8} {port : Int} {octets : List UInt8} (h : ¬ C97_Good (.datagram ip port octets))
    (rest : List Incoming) : clientRun size (.datagram ip port octets :: rest) = ([], .crashed .indexOutOfRange) := by
  have h4 : to4 ip = [] := by
    unfold to4
    split
    · rename_i hl
      match ip, hl with
      | [a, b, c, d], _ => exact absurd ⟨a, b, c, d, port, octets, Or.inl rfl⟩ h
    · split
      · rename_i hl
        exfalso
        have hd : (ip.drop 12).length = 4 := by rw [List.length_drop]; omega
        match he : ip.drop 12, hd with
        | [a, b, c, d], _ =>
          refine h ⟨a, b, c, d, port, octets, Or.inr ?_⟩
          rw [← List.take_append_drop 12 ip, hl.2, he]
          rfl
      · rfl
  simp only [clientRun, h4, udpToAddress]

/-- C96 and C97, exactly.  The receive loop hands over the datagrams before the first error of the socket and the first
sender that has no IPv4 address; it returns exactly if the error comes first, crashes exactly if the sender does, and waits
for more exactly if there is neither. -/
theorem C97_exact (size : Nat) (l : List Incoming) :
    ((clientRun size l).2 = .waiting ↔ ∀ x ∈ l, C97_Good x) ∧
    ((clientRun size l).2 = .returned ↔ ∃ pre post, l = pre ++ .error :: post ∧ ∀ x ∈ pre, C97_Good x) ∧
    (∀ k, (clientRun size l).2 = .crashed k ↔ k = .indexOutOfRange ∧
      ∃ pre ip port octets post, l = pre ++ .datagram ip port octets :: post ∧ (∀ x ∈ pre, C97_Good x) ∧
        ¬ C97_Good (.datagram ip port octets)) ∧
    ∃ pre post, l = pre ++ post ∧ (∀ x ∈ pre, C97_Good x) ∧ (∀ x ∈ post.head?, ¬ C97_Good x) ∧
      List.Forall₂ (fun x r => ∃ ip port octets, x = .datagram ip port octets ∧ r = octets.take size) pre
        ((clientRun size l).1.map Prod.snd) := by
  have error_bad : ¬ C97_Good .error := by rintro ⟨a, b, c, d, port, octets, h | h⟩ <;> cases h
  induction l with
  | nil =>
    refine ⟨by simp [clientRun], ?_, fun k => ?_, [], [], rfl, nofun, nofun, .nil⟩
    · refine iff_of_false nofun ?_
      rintro ⟨pre, post, h, _⟩; cases pre <;> cases h
    · refine iff_of_false nofun ?_
      rintro ⟨_, pre, ip, port, octets, post, h, _⟩; cases pre <;> cases h
  | cons x l ih =>
    by_cases hg : C97_Good x
    · obtain ⟨A, octets, hrun, ip, port, all, hx, ho⟩ := clientRun_good size hg l
      obtain ⟨i1, i2, i3, pre, post, i4, i5, i6, i7⟩ := ih
      rw [hrun]
      have all' : ∀ {pre : List Incoming}, (∀ y ∈ pre, C97_Good y) → ∀ y ∈ x :: pre, C97_Good y := by
        intro pre h y hy
        rcases List.mem_cons.1 hy with rfl | hy
        · exact hg
        · exact h y hy
      refine ⟨?_, ?_, fun k => ?_, x :: pre, post, by rw [i4]; rfl, all' i5, i6, ?_⟩
      · exact i1.trans ⟨all', fun h y hy => h y (List.mem_cons_of_mem _ hy)⟩
      · refine i2.trans ⟨?_, ?_⟩
        · rintro ⟨pre, post, rfl, h⟩
          exact ⟨x :: pre, post, rfl, all' h⟩
        · rintro ⟨pre, post, e, h⟩
          cases pre with
          | nil => injection e with e _; rw [e] at hg; exact absurd hg error_bad
          | cons y pre =>
            injection e with _ e
            exact ⟨pre, post, e, fun z hz => h z (List.mem_cons_of_mem _ hz)⟩
      · refine (i3 k).trans ⟨?_, ?_⟩
        · rintro ⟨hk, pre, ip, port, octets, post, rfl, h, hb⟩
          exact ⟨hk, x :: pre, ip, port, octets, post, rfl, all' h, hb⟩
        · rintro ⟨hk, pre, ip, port, octets, post, e, h, hb⟩
          cases pre with
          | nil => injection e with e _; rw [e] at hg; exact absurd hg hb
          | cons y pre =>
            injection e with _ e
            exact ⟨hk, pre, ip, port, octets, post, e, fun z hz => h z (List.mem_cons_of_mem _ hz), hb⟩
      · exact .cons ⟨ip, port, all, hx, ho⟩ i7
    · -- the first that is not good ends the loop
      have first : ∀ {pre : List Incoming} {y : Incoming} {post : List Incoming}, x :: l = pre ++ y :: post →
          (∀ z ∈ pre, C97_Good z) → y = x := by
        intro pre y post e h
        cases pre with
        | nil => injection e with e _; exact e.symm
        | cons z pre => injection e with e _; exact absurd (e ▸ h z List.mem_cons_self) hg
      have nothing : ∀ s, clientRun size (x :: l) = ([], s) → ∃ pre post, x :: l = pre ++ post ∧ (∀ x ∈ pre, C97_Good x) ∧
          (∀ x ∈ post.head?, ¬ C97_Good x) ∧
          List.Forall₂ (fun x r => ∃ ip port octets, x = Incoming.datagram ip port octets ∧ r = octets.take size) pre
            ((clientRun size (x :: l)).1.map Prod.snd) := by
        intro s hs
        refine ⟨[], x :: l, rfl, nofun, ?_, by rw [hs]; exact .nil⟩
        intro y hy
        obtain rfl := Option.some.inj hy
        exact hg
      cases x with
      | error =>
        refine ⟨iff_of_false nofun fun h => hg (h _ List.mem_cons_self), iff_of_true rfl ⟨[], l, rfl, nofun⟩, fun k => ?_,
          nothing _ rfl⟩
        refine iff_of_false nofun ?_
        rintro ⟨_, pre, ip, port, octets, post, e, h, _⟩
        cases first e h
      | datagram ip port octets =>
        have hb := clientRun_bad size hg l
        refine ⟨?_, ?_, fun k => ?_, nothing _ hb⟩
        · rw [hb]; exact iff_of_false nofun fun h => hg (h _ List.mem_cons_self)
        · rw [hb]
          refine iff_of_false nofun ?_
          rintro ⟨pre, post, e, h⟩
          cases first e h
        · rw [hb]
          constructor
          · intro h
            injection h with h
            exact ⟨h.symm, [], ip, port, octets, l, rfl, nofun, hg⟩
          · rintro ⟨rfl, _⟩; rfl

/-- A datagram, one from ::1, and an error: the first is handed over, then the loop crashes. -/
example : clientRun 1476 [.datagram (ipv4 10 0 0 7) 47808 [1, 2], .datagram [0, 0, 0, 0, 0, 0, 0, 0, 0, 0, 0, 0, 0, 0, 0, 1] 47808 [3],
    .error] = ([({ mac := [10, 0, 0, 7, 0xBA, 0xC0], macLen := 6 }, [1, 2])], .crashed .indexOutOfRange) := by decide

/-! ## C98 exactly -/

/-- C98, exactly: on the port 47808 the broadcasts go to the port the link listens on, on no other. -/
theorem C98_exact (free : Int → Bool) (a b c d : UInt8) (p : Nat) (hp : p ≤ 32) (port : Nat)
    (hport : 0 < port ∧ port < 65536) (hfree : free port = true) :
    ∃ l ip q, newUDPDataLinkFromIP free (.v4 a b c d) p port = .ok (.ok l) ∧ l.broadcast.udpAddr = some (ip, q) ∧
      ((q : Int) = l.listen ↔ port = 47808) := by
  obtain ⟨l, e, f, g, i, h1, h2, _, hb, _⟩ := C62_link_partial free a b c d p hp port hport hfree
  refine ⟨l, _, _, h1, udpAddr_endpoint hb, ?_⟩
  rw [h2]
  omega

/-! ## C87 exactly -/

theorem apduEffects_networks (src : Address) (n : NPDU) (pending : UInt8 → Bool) (send : List UInt8) (a : APDU) (id : Int)
    (l : Option (List Address)) : Effect.publish id (.networks l) ∉ (apduEffects src n pending send a).1 := by
  unfold apduEffects
  intro h
  repeat' split at h
  all_goals simp at h

theorem iAmRouter_published (src : Address) (pending : UInt8 → Bool) (f : UInt8) (hf : f = 10 ∨ f = 11)
    (ns : List UInt16) (id : Int) (l : Option (List Address)) :
    Effect.publish id (.networks l) ∈ (handleMsg src pending (Spec.frame f (iAmRouter ns))).1 ↔
      ∃ a b rest, ns = a :: b :: rest ∧ id = b.toNat ∧
        l = some (if a = b then [{ net := a }] else [{ net := a }, { net := b }]) := by
  have short : (∀ p, networkMsg src pending ⟨iAmRouter ns, p, none⟩ = ([], .ok false)) →
      (handleMsg src pending (Spec.frame f (iAmRouter ns))).1 = [] := by
    intro h
    obtain ⟨k, hk⟩ := frame_octets f (iAmRouter ns)
    obtain ⟨p, hp⟩ := handleMsg_frame src pending 0x81 f k (iAmRouter ns) hf
    rw [hk, hp, h p]
    rfl
  match ns with
  | [] =>
    have hn : ∀ p, ∃ n nets d, Dec.npdu ⟨iAmRouter [], p, none⟩ = .ok ((n, nets, some .eof), d) := by
      intro p
      unfold Dec.npdu
      rw [show iAmRouter [] = [1] ++ ([0x80] ++ ([1] ++ [])) from rfl, D.run_bind (Dec.parses_u8 1 p _), D.run_bind (Dec.parses_u8 0x80 _ _)]
      rw [show checkMask 0x80 0x20 = false from rfl, show checkMask 0x80 0x08 = false from rfl, show checkMask 0x80 0x80 = true from rfl,
        D.run_bind (show Dec.optAddress false _ = .ok (none, _) from rfl), D.run_bind (show Dec.optAddress false _ = .ok (none, _) from rfl),
        D.run_bind (show Dec.optU8 false _ = .ok (0, _) from rfl)]
      dsimp only
      rw [if_pos rfl, D.run_bind (Dec.parses_u8 1 _ _), D.run_bind (show Dec.optU16 (decide ((1 : UInt8) > 0x80)) _ = .ok (0, _) from rfl),
        if_neg (by decide), if_pos rfl]
      exact ⟨_, _, _, rfl⟩
    rw [short fun p => by obtain ⟨n, nets, d, h⟩ := hn p; unfold networkMsg; rw [h]; rfl]
    exact iff_of_false nofun (by rintro ⟨a, b, rest, h, _⟩; cases h)
  | [a] =>
    have hn : ∀ p, ∃ n nets d, Dec.npdu ⟨iAmRouter [a], p, none⟩ = .ok ((n, nets, some .eof), d) := by
      intro p
      unfold Dec.npdu
      rw [show iAmRouter [a] = [1] ++ ([0x80] ++ ([1] ++ (be16 a ++ []))) by simp [iAmRouter], D.run_bind (Dec.parses_u8 1 p _),
        D.run_bind (Dec.parses_u8 0x80 _ _)]
      rw [show checkMask 0x80 0x20 = false from rfl, show checkMask 0x80 0x08 = false from rfl, show checkMask 0x80 0x80 = true from rfl,
        D.run_bind (show Dec.optAddress false _ = .ok (none, _) from rfl), D.run_bind (show Dec.optAddress false _ = .ok (none, _) from rfl),
        D.run_bind (show Dec.optU8 false _ = .ok (0, _) from rfl)]
      dsimp only
      rw [if_pos rfl, D.run_bind (Dec.parses_u8 1 _ _), D.run_bind (show Dec.optU16 (decide ((1 : UInt8) > 0x80)) _ = .ok (0, _) from rfl),
        if_neg (by decide), if_pos rfl, D.run_bind (Dec.parses_be16 a _ _)]
      exact ⟨_, _, _, rfl⟩
    rw [short fun p => by obtain ⟨n, nets, d, h⟩ := hn p; unfold networkMsg; rw [h]; rfl]
    exact iff_of_false nofun (by rintro ⟨a, b, rest, h, _⟩; cases h)
  | a :: b :: rest =>
    have h : Parses Dec.npdu ([1] ++ ([0x80] ++ ([0x01] ++ (be16 a ++ be16 b))))
        ({ version := 1, source := some { net := b }, isNetworkLayerMessage := true, networkLayerMessageType := 1 },
          some (if a ≠ b then [{ net := a }, { net := b }] else [{ net := a }]), none) := by
      unfold Dec.npdu
      refine Parses.bind (Dec.parses_u8 1) (Parses.bind (Dec.parses_u8 0x80) ?_)
      rw [show checkMask 0x80 0x20 = false from rfl, show checkMask 0x80 0x08 = false from rfl,
        show checkMask 0x80 0x04 = false from rfl, show checkMask 0x80 0x80 = true from rfl,
        show (0x80 : UInt8) &&& 3 = 0 from rfl]
      refine Parses.bind0 (Parses.pure _) (Parses.bind0 (Parses.pure _)
        (Parses.bind0 (Parses.pure _) ?_))
      rw [if_pos rfl]
      refine Parses.bind (Dec.parses_u8 1) (Parses.bind0 (Parses.pure _) ?_)
      dsimp only
      rw [if_neg (by decide), if_pos rfl]
      exact Parses.bind (Dec.parses_be16 a) (Parses.bind' (u16Into_be16 a b)
        (Parses.bind0 Dec.parses_error (Parses.pure _)))
    obtain ⟨k, hk⟩ := frame_octets f (iAmRouter (a :: b :: rest))
    obtain ⟨p, hp⟩ := handleMsg_frame src pending 0x81 f k (iAmRouter (a :: b :: rest)) hf
    have e : iAmRouter (a :: b :: rest) = ([1] ++ ([0x80] ++ ([0x01] ++ (be16 a ++ be16 b)))) ++ rest.flatMap be16 := by
      simp [iAmRouter]
    have e2 : (if a ≠ b then [({ net := a } : Address), { net := b }] else [{ net := a }]) =
        if a = b then [{ net := a }] else [{ net := a }, { net := b }] := by
      by_cases hab : a = b <;> simp [hab]
    have ended_fst : ∀ r : List Effect × Outcome Bool, (ended r).1 = r.1 := by
      rintro ⟨es, o⟩
      cases o <;> rfl
    have key : ∃ es, (networkMsg src pending ⟨iAmRouter (a :: b :: rest), p, none⟩).1 =
        .publish b.toNat (.networks (some (if a = b then [{ net := a }] else [{ net := a }, { net := b }]))) :: es ∧
        ∀ id l, Effect.publish id (.networks l) ∉ es := by
      unfold networkMsg
      rw [e, h p _, e2]
      simp only [Option.isSome_none, Bool.false_eq_true, if_false, networkEffects, if_true,
        show ¬ (1 : UInt8) = 0x13 from by decide]
      cases Dec.apdu _ with
      | panic k => exact ⟨[], rfl, nofun⟩
      | diverge => exact ⟨[], rfl, nofun⟩
      | ok r =>
        obtain ⟨⟨ap, err⟩, d⟩ := r
        cases err with
        | some x => exact ⟨[], rfl, nofun⟩
        | none => exact ⟨_, rfl, fun id l => apduEffects_networks src _ pending _ ap id l⟩
    obtain ⟨es, h1, h2⟩ := key
    rw [hk, hp, ended_fst, h1, List.mem_cons]
    constructor
    · rintro (hc | hc)
      · injection hc with hc hc'
        injection hc' with hc'
        exact ⟨a, b, rest, rfl, hc, hc'⟩
      · exact absurd hc (h2 id l)
    · rintro ⟨a', b', rest', hc, rfl, rfl⟩
      cases hc
      exact Or.inl rfl

/-- C87, exactly which of the networks announced are returned: the first two of every announcement of two or more (legal
numbers are 1 to 65534), crashes as in `C87_fails_crash` aside. -/
theorem C87_exact (pending : UInt8 → Bool) (l : List (Address × UInt8 × List UInt16))
    (hf : ∀ x ∈ l, x.2.1 = 10 ∨ x.2.1 = 11) (hl : ∀ x ∈ l, ∀ n ∈ x.2.2, 1 ≤ n ∧ n ≤ 65534) (n : UInt16) :
    n ∈ (whoIsRouter (publishedBy pending (l.map fun x => (x.1, Spec.frame x.2.1 (iAmRouter x.2.2))))).map Address.net ↔
    ∃ x ∈ l, 2 ≤ x.2.2.length ∧ n ∈ x.2.2.take 2 := by
  have two : ∀ a b : UInt16, n ∈ (if a = b then [({ net := a } : Address)] else [{ net := a }, { net := b }]).map Address.net ↔
      n = a ∨ n = b := by
    intro a b
    by_cases h : a = b <;> simp [h]
  unfold whoIsRouter publishedBy
  simp only [List.mem_map, List.mem_flatMap, List.mem_filter, List.mem_filterMap]
  constructor
  · rintro ⟨A, ⟨p, ⟨⟨fr, ⟨x, hx, rfl⟩, e, he, hpe⟩, _⟩, hA⟩, rfl⟩
    split at hpe
    · rename_i id pub
      obtain rfl := Option.some.inj hpe
      dsimp only at hA
      split at hA
      · rename_i nets _
        obtain ⟨a, b, rest, h1, _, h3⟩ := (iAmRouter_published x.1 pending x.2.1 (hf x hx) x.2.2 id nets).1 he
        subst h3
        refine ⟨x, hx, by rw [h1]; simp, ?_⟩
        rw [h1]
        have := (two a b).1 (List.mem_map.2 ⟨A, hA, rfl⟩)
        simpa using this
      · cases hA
    · cases hpe
  · rintro ⟨x, hx, h2, hn⟩
    match hns : x.2.2, h2 with
    | a :: b :: rest, _ =>
      rw [hns] at hn
      have hn : n = a ∨ n = b := by simpa using hn
      obtain ⟨A, hA, hAn⟩ := List.mem_map.1 ((two a b).2 hn)
      obtain ⟨h1, h2⟩ := hl x hx b (by rw [hns]; simp)
      rw [UInt16.le_iff_toNat_le, show (1 : UInt16).toNat = 1 from rfl] at h1
      rw [UInt16.le_iff_toNat_le, show (65534 : UInt16).toNat = 65534 from rfl] at h2
      have he := (iAmRouter_published x.1 pending x.2.1 (hf x hx) x.2.2 b.toNat _).2 ⟨a, b, rest, hns, rfl, rfl⟩
      refine ⟨A, ⟨((b.toNat : Int), .networks (some (if a = b then [{ net := a }] else [{ net := a }, { net := b }]))),
        ⟨⟨_, ⟨x, hx, rfl⟩, _, he, rfl⟩, ?_⟩, hA⟩, hAn⟩
      simp
      omega

example : (whoIsRouter (publishedBy (fun _ => false) [({}, [0x81, 11, 0, 13, 1, 0x80, 1, 0, 5, 1, 6, 0, 7]),
    ({}, [0x81, 11, 0, 9, 1, 0x80, 1, 0, 8])])).map Address.net = [5, 262] := by decide +kernel

/-! ## C101 exactly -/

/-- C101, exactly which numbers of a priority array are reported as they were sent: those of up to 24 bits followed by zeros. -/
theorem C101_exact (v : UInt32) : (∃ bits, priorityEntry (.uint v) = .ok (some bits) ∧ RealIs bits.toNat v.toNat) ↔
    ∃ m k, m < 2 ^ 24 ∧ v.toNat = m * 2 ^ k := by
  constructor
  · rintro ⟨f, _, hlt, hr⟩
    unfold realTimes2p150 at hr
    split at hr
    · refine ⟨0, 0, by decide, ?_⟩
      have h1 : f.toNat % 2 ^ 23 < 2 ^ 23 := Nat.mod_lt _ (by decide)
      omega
    · generalize f.toNat / 2 ^ 23 = e at *
      have hm : f.toNat % 2 ^ 23 < 2 ^ 23 := Nat.mod_lt _ (by decide)
      generalize f.toNat % 2 ^ 23 = m at *
      by_cases hle : e ≤ 150
      · refine ⟨v.toNat, 0, ?_, by simp⟩
        have h1 : (2 ^ 23 + m) * 2 ^ e ≤ (2 ^ 23 + m) * 2 ^ 150 := Nat.mul_le_mul_left _ (Nat.pow_le_pow_right (by decide) hle)
        rw [hr] at h1
        have := Nat.le_of_mul_le_mul_right h1 (Nat.two_pow_pos 150)
        omega
      · obtain ⟨k, rfl⟩ : ∃ k, e = k + 150 := ⟨e - 150, by omega⟩
        rw [Nat.pow_add, ← Nat.mul_assoc] at hr
        exact ⟨2 ^ 23 + m, k, by omega, (Nat.eq_of_mul_eq_mul_right (Nat.two_pow_pos 150) hr).symm⟩
  · rintro ⟨m, k, hm, hv⟩
    refine ⟨_, rfl, ?_⟩
    by_cases hsmall : v.toNat ≤ 2 ^ 24
    · exact float_exact v hsmall
    have h0 : v.toNat ≠ 0 := by omega
    obtain ⟨b1, b2, b3⟩ := log2_bounds v h0
    have hk : 24 ≤ v.toNat.log2 := by
      rcases Nat.lt_or_ge v.toNat.log2 24 with h | h
      · have : 2 ^ (v.toNat.log2 + 1) ≤ 2 ^ 24 := Nat.pow_le_pow_right (by decide) (by omega)
        omega
      · exact h
    obtain ⟨s, hs⟩ : ∃ s, v.toNat.log2 = s + 23 := ⟨v.toNat.log2 - 23, by omega⟩
    rw [hs] at b1 b2 b3
    -- the zeros at the end are enough
    have hsk : s ≤ k := by
      rcases Nat.lt_or_ge k s with h | h
      · exfalso
        have h1 : m * 2 ^ k < 2 ^ 24 * 2 ^ k := Nat.mul_lt_mul_of_pos_right hm (Nat.two_pow_pos _)
        have h2 : 2 ^ 24 * 2 ^ k ≤ 2 ^ (s + 23) := by rw [← Nat.pow_add]; exact Nat.pow_le_pow_right (by decide) (by omega)
        omega
      · exact h
    obtain ⟨j, rfl⟩ : ∃ j, k = j + s := ⟨k - s, by omega⟩
    rw [Nat.pow_add, ← Nat.mul_assoc] at hv
    generalize m * 2 ^ j = q at hv
    have hq1 : 2 ^ 23 ≤ q := by
      rw [hv, Nat.pow_add, Nat.mul_comm (2 ^ s)] at b1
      exact Nat.le_of_mul_le_mul_right b1 (Nat.two_pow_pos s)
    have hq2 : q < 2 ^ 24 := by
      rw [hv, show s + 23 + 1 = 24 + s by omega, Nat.pow_add] at b2
      exact Nat.lt_of_mul_lt_mul_right b2
    have hreal := real_parts (150 + s) q (by omega) hq1 (by omega)
    have heq : realTimes2p150 ((150 + s) * 2 ^ 23 + (q - 2 ^ 23)) = v.toNat * 2 ^ 150 := by
      rw [hreal, hv, Nat.pow_add, Nat.mul_assoc, Nat.mul_comm (2 ^ s)]
    obtain ⟨n1, n2⟩ := float_nearest v
    have := n2 ((150 + s) * 2 ^ 23 + (q - 2 ^ 23)) (by omega)
    unfold realError at this
    rw [heq] at this
    refine ⟨by omega, ?_⟩
    clear heq hreal hv hq1 hq2 b1 b2 n1 n2
    generalize realTimes2p150 (float32OfUInt32 v).toNat = x at *
    generalize v.toNat * 2 ^ 150 = y at *
    omega

/-- 4294967040, with 24 ones, is reported exactly. -/
example : priorityEntry (.uint 4294967040) = .ok (some 0x4F7FFFFF) ∧ RealIs 0x4F7FFFFF 4294967040 ∧
    4294967040 = (2 ^ 24 - 1) * 2 ^ 8 := ⟨by decide +kernel, by unfold RealIs; decide +kernel, by decide⟩

end Bac.Props
