import Verif.Lemmas.Calls
import Verif.Props.Services
import Verif.Props.Writes
import Verif.Props.Incoming
/-!
# C41 - C44: frame kind, retransmission, size check, results of the calls
-/

namespace Bac.Props

/-! ## C41 Frame kind selection -/

/-- C41.  The second octet of the datagram tells the kind of frame (10 for
Original-Unicast, 11 for Original-Broadcast): an override wins; otherwise a station
with a hardware address and a plain unicast address get a unicast frame, the global
broadcast, an address without MAC and a broadcast on a remote network a broadcast frame.
The payload is sent unchanged after four octets. -/
theorem C41_kind (dest : Address) (bt : Option SetBroadcastType) (data : List UInt8) :
    ∃ frame kind, sendFrame dest data bt = .ok frame ∧ frame.drop 4 = data ∧ frame[1]? = some kind ∧
      (∀ g, bt = some ⟨true, g⟩ → kind = g) ∧
      ((bt = none ∨ ∃ g, bt = some ⟨false, g⟩) →
        (dest.adr ≠ [] → kind = 10) ∧
        (dest.adr = [] → dest.net = 0 → dest.macLen ≠ 0 → kind = 10) ∧
        (dest.adr = [] → dest.net ≠ 0xFFFF → dest.len ≠ 0 → dest.macLen ≠ 0 → kind = 10) ∧
        (dest.adr = [] → dest.net = 0xFFFF ∨ dest.macLen = 0 ∨ (dest.net ≠ 0 ∧ dest.len = 0) → kind = 11)) := by
  refine ⟨_, sendFunction dest bt, sendFrame_ok dest data bt, ?_, rfl, ?_, ?_⟩
  · simp [be16]
  · rintro g rfl; rfl
  · intro hb
    have hs : sendFunction dest bt = if dest.adr.length > 0 then 10
        else if dest.isBroadcast || dest.isSubBroadcast then 11 else 10 := by
      rcases hb with rfl | ⟨g, rfl⟩ <;> rfl
    rw [hs]
    have hpos : dest.net > 0 ↔ dest.net ≠ 0 := by
      rw [gt_iff_lt, UInt16.lt_iff_toNat_lt, ne_eq, ← UInt16.toNat_inj]
      simp; omega
    refine ⟨fun h => ?_, fun h h0 h1 => ?_, fun h h0 h1 h2 => ?_, fun h h0 => ?_⟩
    · rw [if_pos (List.length_pos_iff.mpr h)]
    · rw [h]
      simp [Address.isBroadcast, Address.isSubBroadcast, h0, h1]
    · rw [h]
      simp [Address.isBroadcast, Address.isSubBroadcast, h0, h1, h2]
    · rw [h]
      simp only [List.length_nil, gt_iff_lt, Nat.lt_irrefl, if_false]
      rw [if_pos]
      simp only [Address.isBroadcast, Address.isSubBroadcast, Bool.or_eq_true, Bool.and_eq_true,
        decide_eq_true_eq, hpos]
      tauto

example : sendFrame { net := 0xFFFF, macLen := 6, mac := [10, 0, 0, 255, 0xBA, 0xC0] } [7] none
    = .ok [0x81, 11, 0, 5, 7] := by decide
example : sendFrame { net := 3, macLen := 6, len := 1, adr := [9] } [7] (some ⟨true, 5⟩)
    = .ok [0x81, 5, 0, 5, 7] := by decide

/-! ## C42 Bounded retransmission -/

/-- C42.  Whatever the network does, ReadProperty hands at most one datagram to the
data link and the other three calls at most two, which are the same. -/
theorem C42_bound (fuel : Nat) (my : Address) (dev : Device) (rp wp : PropertyData)
    (os ws : List Object) (invoke : Option UInt8) (script : Nat → Attempt) :
    (∃ k ≤ 1, ∃ s, (clientReadProperty fuel my dev rp invoke script).1 = List.replicate k s) ∧
    (∃ k ≤ 2, ∃ s, (clientWriteProperty my dev wp invoke script).1 = List.replicate k s) ∧
    (∃ k ≤ 2, ∃ s, (clientReadMulti fuel my dev os invoke script).1 = List.replicate k s) ∧
    (∃ k ≤ 2, ∃ s, (clientWriteMulti my dev ws invoke script).1 = List.replicate k s) := by
  refine ⟨?_, ?_, ?_, ?_⟩
  · rcases clientReadProperty_cases fuel my dev rp invoke with ⟨r, _, h⟩ | ⟨pack, h⟩
    · exact ⟨0, by omega, ⟨{}, []⟩, by rw [h]; rfl⟩
    · obtain ⟨k, hk, h', _⟩ := attempts_sent dev.addr.setLength pack (readStep fuel) script 1 0 (.failed .noId)
      exact ⟨k, hk, _, by rw [h, h']⟩
  · rcases clientWriteProperty_cases my dev wp invoke with ⟨r, _, h⟩ | ⟨pack, h⟩
    · exact ⟨0, by omega, ⟨{}, []⟩, by rw [h]; rfl⟩
    · obtain ⟨k, hk, h', _⟩ := attempts_sent dev.addr.setLength pack writeStep script 2 0 (.failed .noId)
      exact ⟨k, hk, _, by rw [h, h']⟩
  · rcases clientReadMulti_cases fuel my dev os invoke with ⟨r, _, h⟩ | ⟨pack, _, h⟩
    · exact ⟨0, by omega, ⟨{}, []⟩, by rw [h]; rfl⟩
    · obtain ⟨k, hk, h', _⟩ := attempts_sent dev.addr.setLength pack (readMultiStep fuel) script 2 0 (.failed .noId)
      exact ⟨k, hk, _, by rw [h]; exact h'⟩
  · rcases clientWriteMulti_cases my dev ws invoke with ⟨r, _, h⟩ | ⟨pack, _, h⟩
    · exact ⟨0, by omega, ⟨{}, []⟩, by rw [h]; rfl⟩
    · obtain ⟨k, hk, h', _⟩ := attempts_sent dev.addr pack writeMultiStep script 2 0 (.failed .noId)
      exact ⟨k, hk, _, by rw [h]; exact h'⟩

/-- C42, no datagram after an accepted reply: a call whose result is a success made
its last datagram in the attempt that received the accepted reply, so datagrams and
result are settled by the attempts up to there. -/
theorem C42_settled (fuel : Nat) (my : Address) (dev : Device) (rp wp : PropertyData)
    (os ws : List Object) (invoke : Option UInt8) (s s' : Nat → Attempt) :
    ((∀ j < (clientReadProperty fuel my dev rp invoke s).1.length, s j = s' j) →
      clientReadProperty fuel my dev rp invoke s = clientReadProperty fuel my dev rp invoke s') ∧
    ((∀ j < (clientWriteProperty my dev wp invoke s).1.length, s j = s' j) →
      clientWriteProperty my dev wp invoke s = clientWriteProperty my dev wp invoke s') ∧
    ((∀ j < (clientReadMulti fuel my dev os invoke s).1.length, s j = s' j) →
      clientReadMulti fuel my dev os invoke s = clientReadMulti fuel my dev os invoke s') ∧
    ((∀ j < (clientWriteMulti my dev ws invoke s).1.length, s j = s' j) →
      clientWriteMulti my dev ws invoke s = clientWriteMulti my dev ws invoke s') := by
  have key : ∀ {α : Type} (dest : Address) (pack : List UInt8) (step : Recv → Outcome (Step α)) (n : Nat) (last : CallErr),
      (∀ j < (attempts dest pack step s n 0 last).1.length, s j = s' j) →
      attempts dest pack step s n 0 last = attempts dest pack step s' n 0 last := by
    intro α dest pack step n last h
    apply attempts_causal
    simpa using h
  refine ⟨fun h => ?_, fun h => ?_, fun h => ?_, fun h => ?_⟩
  · rcases clientReadProperty_cases fuel my dev rp invoke with ⟨r, _, e⟩ | ⟨pack, e⟩
    · rw [e, e]
    · rw [e] at h; rw [e, e]; exact key _ _ _ _ _ h
  · rcases clientWriteProperty_cases my dev wp invoke with ⟨r, _, e⟩ | ⟨pack, e⟩
    · rw [e, e]
    · rw [e] at h; rw [e, e]; exact key _ _ _ _ _ h
  · rcases clientReadMulti_cases fuel my dev os invoke with ⟨r, _, e⟩ | ⟨pack, _, e⟩
    · rw [e, e]
    · rw [e] at h; rw [e, e, key _ _ _ _ _ h]
  · rcases clientWriteMulti_cases my dev ws invoke with ⟨r, _, e⟩ | ⟨pack, _, e⟩
    · rw [e, e]
    · rw [e] at h; rw [e, e, key _ _ _ _ _ h]

/-- Two attempts, the first without answer. -/
example : (clientWriteProperty {} { addr := { macLen := 6 } }
    { object := { id := ⟨2, 1⟩, properties := [⟨85, arrayAll, .one (.uint 7), 8⟩] } } (some 3)
    (fun i => if i = 0 then {} else ⟨none, .bytes [0x20, 3, 15]⟩)) =
    (List.replicate 2 ⟨{ macLen := 6 }, [0x81, 10, 0, 23, 1, 4, 0, 5, 3, 15, 0x0C, 0, 0x80, 0, 1, 0x19, 85,
      0x3E, 0x21, 7, 0x3F, 0x49, 8]⟩, .ok (.ok ())) := by decide +kernel

/-! ## C43 Oversized requests -/

theorem sent_fits (maxApdu : UInt32) (dest : Address) (pack : List UInt8)
    (h : ¬ maxApdu < UInt32.ofNat pack.length) (hl : (datagram dest pack).data.length < 2 ^ 32) :
    (datagram dest pack).data.length ≤ maxApdu.toNat + 4 := by
  have e : (datagram dest pack).data.length = pack.length + 4 := by simp [datagram, be16]
  rw [e] at hl ⊢
  rw [UInt32.lt_iff_toNat_lt, UInt32.toNat_ofNat_of_lt' (by show pack.length < 2 ^ 32; omega)] at h
  omega

/-- C43.  A datagram sent by one of the two multi-property calls carries at most as
many octets after its frame header as the device's limit.
Missing: datagrams of 2³² octets and more, whose length is truncated (`C43_fails_huge`). -/
theorem C43_sent_partial (fuel : Nat) (my : Address) (dev : Device) (os ws : List Object)
    (invoke : Option UInt8) (script : Nat → Attempt) (s : Sent) (hl : s.data.length < 2 ^ 32)
    (hs : s ∈ (clientReadMulti fuel my dev os invoke script).1 ∨
      s ∈ (clientWriteMulti my dev ws invoke script).1) :
    s.data.length ≤ dev.maxApdu.toNat + 4 := by
  rcases hs with hs | hs
  · rcases clientReadMulti_cases fuel my dev os invoke with ⟨r, _, h⟩ | ⟨pack, hp, h⟩
    · rw [h] at hs; simp at hs
    · obtain ⟨k, hk, h', _⟩ := attempts_sent dev.addr.setLength pack (readMultiStep fuel) script 2 0 (.failed .noId)
      rw [h] at hs
      simp only [h'] at hs
      obtain ⟨_, rfl⟩ := List.mem_replicate.mp hs
      exact sent_fits _ _ _ hp hl
  · rcases clientWriteMulti_cases my dev ws invoke with ⟨r, _, h⟩ | ⟨pack, hp, h⟩
    · rw [h] at hs; simp at hs
    · obtain ⟨k, hk, h', _⟩ := attempts_sent dev.addr pack writeMultiStep script 2 0 (.failed .noId)
      rw [h] at hs
      simp only [h'] at hs
      obtain ⟨_, rfl⟩ := List.mem_replicate.mp hs
      exact sent_fits _ _ _ hp hl

/-! ## C44 The result of a call is what the device answered -/

theorem readAnswer_ok {fuel : Nat} {b : List UInt8} {out : PropertyData}
    (h : readAnswer fuel b = .ok (.ok out)) :
    ∃ a d d', Dec.apdu (Dec.new b) = .ok ((a, none), d) ∧ a.errorClass = 0 ∧ a.errorCode = 0 ∧
      Dec.readProperty fuel d = .ok ((out, none), d') ∧ d'.err = none := by
  unfold readAnswer answerHeader at h
  obtain ⟨⟨a, err⟩, d, ha⟩ := Dec.total_apdu (Dec.new b)
  rw [ha] at h
  cases err with
  | some e => simp [bind, Outcome.bind] at h
  | none =>
    simp only at h
    split at h
    · simp [bind, Outcome.bind] at h
    · rename_i hne
      have hne' : a.errorClass = 0 ∧ a.errorCode = 0 := by
        constructor
        · by_contra hc; exact hne (Or.inl hc)
        · by_contra hc; exact hne (Or.inr hc)
      simp only [Outcome.ok_bind] at h
      cases hr : Dec.readProperty fuel d with
      | ok r =>
        obtain ⟨⟨out', err⟩, d'⟩ := r
        rw [hr] at h
        simp only [Outcome.ok_bind] at h
        cases err with
        | some e => simp at h
        | none =>
          simp only at h
          cases he : d'.err with
          | some e => rw [he] at h; simp at h
          | none =>
            rw [he] at h
            cases h
            exact ⟨a, d, d', ha, hne'.1, hne'.2, hr, he⟩
      | panic k => rw [hr] at h; simp [bind, Outcome.bind] at h
      | diverge => rw [hr] at h; simp [bind, Outcome.bind] at h

/-- C44, success: data returned by a read is what the octets delivered in the one
attempt decode to. -/
theorem C44_read_success (fuel : Nat) (my : Address) (dev : Device) (rp out : PropertyData)
    (invoke : Option UInt8) (script : Nat → Attempt)
    (h : (clientReadProperty fuel my dev rp invoke script).2 = .ok (.ok out)) :
    ∃ b a d d', script 0 = ⟨none, .bytes b⟩ ∧ Dec.apdu (Dec.new b) = .ok ((a, none), d) ∧
      Dec.readProperty fuel d = .ok ((out, none), d') ∧
      (clientReadProperty fuel my dev rp invoke script).1.length = 1 := by
  rcases clientReadProperty_cases fuel my dev rp invoke with ⟨r, hr, h'⟩ | ⟨pack, h'⟩
  · rw [h'] at h; exact absurd h (hr out)
  · rw [h'] at h ⊢
    obtain ⟨j, hj, h1, h2⟩ := attempts_success _ _ _ _ _ _ _ _ h
    obtain ⟨k, hk, hk', _⟩ := attempts_sent dev.addr.setLength pack (readStep fuel) script 1 0 (.failed .noId)
    have hj0 : j = 0 := by
      have := congrArg List.length (hj.symm.trans hk')
      simp at this; omega
    subst hj0
    rw [Nat.zero_add] at h1 h2
    cases hr : (script 0).recv with
    | timeout => rw [hr] at h2; simp [readStep] at h2
    | error c k => rw [hr] at h2; simp [readStep] at h2
    | other => rw [hr] at h2; simp [readStep] at h2
    | bytes b =>
      rw [hr] at h2
      simp only [readStep] at h2
      have hra : readAnswer fuel b = .ok (.ok out) := by
        cases hx : readAnswer fuel b with
        | ok x =>
          rw [hx] at h2
          cases x with
          | ok y =>
            simp only [Outcome.ok_bind, Outcome.pure_eq, Outcome.ok.injEq, Step.done.injEq, Except.ok.injEq] at h2
            rw [h2]
          | error e => simp [Outcome.ok_bind, Outcome.pure_eq] at h2
        | panic k => rw [hx] at h2; simp [bind, Outcome.bind] at h2
        | diverge => rw [hx] at h2; simp [bind, Outcome.bind] at h2
      obtain ⟨a, d, d', ha, _, _, hd, _⟩ := readAnswer_ok hra
      refine ⟨b, a, d, d', ?_, ha, hd, by rw [hj]; rfl⟩
      cases hsc : script 0 with
      | mk se rc => rw [hsc] at hr h1; simp only at hr h1; rw [hr, h1]

/-- C44, success of a multi-property read. -/
theorem C44_readMulti_success (fuel : Nat) (my : Address) (dev : Device) (os out : List Object)
    (invoke : Option UInt8) (script : Nat → Attempt)
    (h : (clientReadMulti fuel my dev os invoke script).2 = .ok (.ok out)) :
    ∃ j < 2, ∃ b a d d', script j = ⟨none, .bytes b⟩ ∧ Dec.apdu (Dec.new b) = .ok ((a, none), d) ∧
      Dec.readMultipleAck fuel d = .ok ((out, none), d') ∧
      (clientReadMulti fuel my dev os invoke script).1.length = j + 1 := by
  rcases clientReadMulti_cases fuel my dev os invoke with ⟨r, hr, h'⟩ | ⟨pack, _, h'⟩
  · rw [h'] at h; exact absurd h (hr out)
  · rw [h'] at h ⊢
    simp only [wrapFailed_ok] at h
    obtain ⟨j, hj, h1, h2⟩ := attempts_success _ _ _ _ _ _ _ _ h
    obtain ⟨k, hk, hk', _⟩ := attempts_sent dev.addr.setLength pack (readMultiStep fuel) script 2 0 (.failed .noId)
    have hj0 : j < 2 := by
      have := congrArg List.length (hj.symm.trans hk')
      simp at this; omega
    rw [Nat.zero_add] at h1 h2
    refine ⟨j, hj0, ?_⟩
    cases hr : (script j).recv with
    | timeout => rw [hr] at h2; simp [readMultiStep] at h2
    | error c k => rw [hr] at h2; simp [readMultiStep] at h2
    | other => rw [hr] at h2; simp [readMultiStep] at h2
    | bytes b =>
      rw [hr] at h2
      simp only [readMultiStep, answerHeader] at h2
      obtain ⟨⟨a, err⟩, d, ha⟩ := Dec.total_apdu (Dec.new b)
      rw [ha] at h2
      cases err with
      | some e => simp [Outcome.ok_bind, Outcome.pure_eq] at h2
      | none =>
        simp only at h2
        split at h2
        · simp [Outcome.ok_bind, Outcome.pure_eq] at h2
        · simp only [Outcome.ok_bind] at h2
          cases hx : Dec.readMultipleAck fuel d with
          | ok r =>
            obtain ⟨⟨out', err⟩, d'⟩ := r
            rw [hx] at h2
            cases err with
            | some e => simp [Outcome.ok_bind, Outcome.pure_eq] at h2
            | none =>
              simp only [Outcome.ok_bind, Outcome.pure_eq, Outcome.ok.injEq, Step.done.injEq, Except.ok.injEq] at h2
              subst h2
              refine ⟨b, a, d, d', ?_, ha, hx, by simp only [hj]; simp⟩
              cases hsc : script j with
              | mk se rc => rw [hsc] at hr h1; simp only at hr h1; rw [hr, h1]
          | panic k => rw [hx] at h2; simp [bind, Outcome.bind] at h2
          | diverge => rw [hx] at h2; simp [bind, Outcome.bind] at h2

end Bac.Props
