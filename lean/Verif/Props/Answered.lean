import Verif.Props.EndToEnd
import Verif.Props.Receive
/-!
# C44, C73: exactly which answers make a write succeed, and which error is returned
-/

namespace Bac.Props

open Spec (AppVal Means NetAddr NetHeader)

/-- The octets some datagram makes the receiving loop hand to a transaction. -/
def C73_Handed (b : List UInt8) : Prop :=
  ∃ src pending frame id, Effect.deliver id (.apdu b) ∈ (handleMsg src pending frame).1

/-- What an attempt receives is nothing, an error PDU, or octets a datagram brought. -/
def C73_Genuine (script : Nat → Attempt) : Prop :=
  ∀ j, (script j).recv = .timeout ∨ (∃ c k, (script j).recv = .error c k) ∨
    ∃ b, (script j).recv = .bytes b ∧ C73_Handed b

/-- The attempt's datagram went out and octets came back. -/
def C73_Octets (a : Attempt) : Prop := a.sendErr = none ∧ ∃ b, a.recv = .bytes b

/-- The attempt's datagram could not be sent, or nothing came back. -/
def C73_Nothing (a : Attempt) : Prop := a.sendErr ≠ none ∨ a.recv = .timeout

theorem apdu_prev (x : UInt8) (xs : List UInt8) (p q : Option UInt8) :
    Dec.apdu ⟨x :: xs, p, none⟩ = Dec.apdu ⟨x :: xs, q, none⟩ := by
  unfold Dec.apdu
  rw [D.run_bind (show Dec.u8 ⟨x :: xs, p, none⟩ = _ from Dec.parses_u8 x p xs),
    D.run_bind (show Dec.u8 ⟨x :: xs, q, none⟩ = _ from Dec.parses_u8 x q xs),
    show lastOr p [x] = lastOr q [x] from rfl]

/-- The header of octets that were handed over is accepted by the waiting call. -/
theorem answerHeader_handed {b : List UInt8} (h : C73_Handed b) : ∃ d, answerHeader b = .ok (.ok d) := by
  obtain ⟨src, pending, frame, id, h⟩ := h
  obtain ⟨t, f, l, payload, p, hb, hf, h⟩ := handleMsg_inv h
  obtain ⟨n, nets, d1, hn, he, h⟩ := networkMsg_inv h
  rcases h with h | ⟨a, d2, ha, h⟩
  · unfold networkEffects at h
    split_ifs at h <;> (try split at h) <;> simp at h
  obtain ⟨rfl, hx⟩ := apduEffects_deliver h
  have hx : (a.dataType = 0x20 ∨ a.dataType = 0x30 ∨ a.dataType = 0) ∧ b = d1.buf := by
    rcases hx with ⟨h1, h2⟩ | ⟨_, h2⟩
    · exact ⟨h1, by cases h2; rfl⟩
    · cases h2
  obtain ⟨hd, rfl⟩ := hx
  have key : (∃ x xs, d1.buf = x :: xs) ∧ a.errorClass = 0 ∧ a.errorCode = 0 := by
    rcases Dec.apdu_inv he ha with ⟨t, svc, raw, hbuf, ht, hdt, _⟩ | ⟨t, inv, svc, hbuf, ht, hdt, hi, _, h1, h2⟩ |
      ⟨t, b', inv, rest, hbuf, ht, hdt, hi, h1, h2⟩ | ⟨t, rest, hbuf, ht, hdt, hr⟩
    · rw [hdt] at hd; simp at hd
    · exact ⟨⟨_, _, hbuf⟩, h1, h2⟩
    · exact ⟨⟨_, _, hbuf⟩, h1, h2⟩
    · rw [hdt] at hd; simp at hd
  obtain ⟨⟨x, xs, hbuf⟩, h1, h2⟩ := key
  obtain ⟨buf, q, err⟩ := d1
  simp only at hbuf he
  subst hbuf he
  rw [apdu_prev x xs q none] at ha
  refine ⟨d2, ?_⟩
  unfold answerHeader
  rw [show Dec.new (x :: xs) = ⟨x :: xs, none, none⟩ from rfl, ha]
  simp [h1, h2]

theorem write_octets {script : Nat → Attempt} (hg : C73_Genuine script) {j : Nat} {b : List UInt8}
    (h : (script j).recv = .bytes b) :
    writeStep (script j).recv = .ok (.done (.ok ())) ∧ writeMultiStep (script j).recv = .ok (.done (.ok ())) := by
  rcases hg j with h' | ⟨c, k, h'⟩ | ⟨b', h', hh⟩
  · rw [h'] at h; cases h
  · rw [h'] at h; cases h
  · obtain ⟨d, hd⟩ := answerHeader_handed hh
    rw [h']
    simp only [writeStep, writeMultiStep, hd]
    exact ⟨rfl, rfl⟩

/-- C73, exactly: a WriteProperty call (arguments as in C29) succeeds if and only if
some octets are received, of whatever message with its invoke id, in the first attempt, or
in the second when the first brought nothing. -/
theorem C73_exact (my : Address) (dev : Device) (hmy : my.net = 0) (wp : PropertyData) (p : Property) (v : AppVal)
    (hv : ValidRead wp p) (hm : C29_Meant wp.object p v) (id : UInt8) (script : Nat → Attempt)
    (hg : C73_Genuine script) :
    (clientWriteProperty my dev wp (some id) script).2 = .ok (.ok ()) ↔
      C73_Octets (script 0) ∨ (C73_Nothing (script 0) ∧ C73_Octets (script 1)) := by
  rw [writeProperty_call my dev wp p v id script hmy hv hm]
  generalize dev.addr.setLength = dest
  generalize requestOctets dest ++ _ = pack
  have one : ∀ last, (attempts dest pack writeStep script 1 1 last).2 = .ok (.ok ()) ↔ C73_Octets (script 1) := by
    intro last
    cases hs : (script 1).sendErr with
    | some e =>
      rw [attempts_sendErr hs]
      exact ⟨nofun, fun h => by rw [h.1] at hs; cases hs⟩
    | none =>
      rcases hg 1 with h | ⟨c, k, h⟩ | ⟨b, h, _⟩
      · rw [attempts_retry (e := .timeout) hs (by rw [h]; rfl)]
        exact ⟨nofun, fun h' => by obtain ⟨b, hb⟩ := h'.2; rw [h] at hb; cases hb⟩
      · rw [attempts_done (r := .error (.device c k)) hs (by rw [h]; rfl)]
        exact ⟨nofun, fun h' => by obtain ⟨b, hb⟩ := h'.2; rw [h] at hb; cases hb⟩
      · rw [attempts_done hs (write_octets hg h).1]
        exact ⟨fun _ => ⟨hs, b, h⟩, fun _ => rfl⟩
  cases hs : (script 0).sendErr with
  | some e =>
    rw [attempts_sendErr hs]
    refine (one _).trans ⟨fun h => Or.inr ⟨Or.inl (by rw [hs]; simp), h⟩, fun h => ?_⟩
    rcases h with h | h
    · rw [h.1] at hs; cases hs
    · exact h.2
  | none =>
    rcases hg 0 with h | ⟨c, k, h⟩ | ⟨b, h, _⟩
    · rw [attempts_retry (e := .timeout) hs (by rw [h]; rfl)]
      refine (one _).trans ⟨fun h' => Or.inr ⟨Or.inr h, h'⟩, fun h' => ?_⟩
      rcases h' with ⟨_, b, hb⟩ | h'
      · rw [h] at hb; cases hb
      · exact h'.2
    · rw [attempts_done (r := .error (.device c k)) hs (by rw [h]; rfl)]
      refine ⟨nofun, fun h' => ?_⟩
      rcases h' with ⟨_, b, hb⟩ | ⟨h' | h', _⟩
      · rw [h] at hb; cases hb
      · exact absurd hs h'
      · rw [h] at h'; cases h'
    · rw [attempts_done hs (write_octets hg h).1]
      exact ⟨fun _ => Or.inl ⟨hs, b, h⟩, fun _ => rfl⟩

/-- The error of an attempt that did not bring octets: not sent, nothing received, or
refused by the device. -/
def C44_errorOf (a : Attempt) : CallErr :=
  match a.sendErr, a.recv with
  | some e, _ => .send e
  | none, .error c k => .device c k
  | none, _ => .timeout

/-- C44 and C73, exactly, for a write of several properties that fits: the result is
success if octets are received in one of the two attempts, otherwise it is the error of the
second attempt, wrapped; the error of the first is lost. -/
theorem C44_exact (my : Address) (dev : Device) (hmy : my.net = 0) (val : Property → AppVal) (os : List Object)
    (hv : ∀ o ∈ os, C04_Valid o.id) (hw : ∀ o ∈ os, ∀ p ∈ o.properties, OwnType p.data (val p))
    (id : UInt8) (hfit : (writeMultiPack dev id val os).length ≤ dev.maxApdu.toNat)
    (script : Nat → Attempt) (hg : C73_Genuine script) :
    (C73_Octets (script 0) ∨ C73_Octets (script 1) →
      (clientWriteMulti my dev os (some id) script).2 = .ok (.ok ())) ∧
    (¬ (C73_Octets (script 0) ∨ C73_Octets (script 1)) →
      (clientWriteMulti my dev os (some id) script).2 = .ok (.error (.failed (C44_errorOf (script 1))))) := by
  have hk : ¬ dev.maxApdu < UInt32.ofNat (writeMultiPack dev id val os).length := by
    have := dev.maxApdu.toNat_lt
    rw [UInt32.lt_iff_toNat_lt, UInt32.toNat_ofNat', Nat.mod_eq_of_lt (by omega)]
    omega
  rw [writeMulti_call my dev val os id script hmy hv hw, if_neg hk]
  generalize writeMultiPack dev id val os = pack
  generalize dev.addr = dest
  have bad : ∀ i n last, ¬ C73_Octets (script i) →
      (attempts dest pack writeMultiStep script (n + 1) i last).2 =
        (attempts dest pack writeMultiStep script n (i + 1) (C44_errorOf (script i))).2 := by
    intro i n last hb
    cases hs : (script i).sendErr with
    | some e => rw [attempts_sendErr hs]; simp only [C44_errorOf, hs]
    | none =>
      rcases hg i with h | ⟨c, k, h⟩ | ⟨b, h, _⟩
      · rw [attempts_retry (e := .timeout) hs (by rw [h]; rfl)]; simp only [C44_errorOf, hs, h]
      · rw [attempts_retry (e := .device c k) hs (by rw [h]; rfl)]; simp only [C44_errorOf, hs, h]
      · exact absurd ⟨hs, b, h⟩ hb
  have good : ∀ i n last, C73_Octets (script i) →
      (attempts dest pack writeMultiStep script (n + 1) i last).2 = .ok (.ok ()) := by
    rintro i n last ⟨hs, b, h⟩
    rw [attempts_done hs (write_octets hg h).2]
  by_cases h0 : C73_Octets (script 0)
  · refine ⟨fun _ => ?_, fun h => absurd (Or.inl h0) h⟩
    simp only [good 0 1 _ h0]
    rfl
  · by_cases h1 : C73_Octets (script 1)
    · refine ⟨fun _ => ?_, fun h => absurd (Or.inr h1) h⟩
      simp only [bad 0 1 _ h0, good 1 0 _ h1]
      rfl
    · refine ⟨fun h => by rcases h with h | h <;> contradiction, fun _ => ?_⟩
      simp only [bad 0 1 _ h0, bad 1 0 _ h1]
      rfl

/-- A script with an error of the device in the first attempt and nothing in the
second: the error is lost. -/
example : C73_Genuine (fun j => if j = 0 then ⟨none, .error 2 32⟩ else ⟨none, .timeout⟩) ∧
    C44_errorOf ⟨none, .timeout⟩ = .timeout ∧ C44_errorOf ⟨none, .error 2 32⟩ = .device 2 32 ∧
    C44_errorOf ⟨some .eof, .timeout⟩ = .send .eof := by
  refine ⟨fun j => ?_, rfl, rfl, rfl⟩
  by_cases h : j = 0
  · right; left; exact ⟨2, 32, by simp [h]⟩
  · left; simp [h]

/-- Octets of a peer's confirmed request that is handed to the pending call. -/
example : C73_Handed [0, 5, 3, 12, 0x0C, 2, 0, 0, 9, 0x19, 76] :=
  ⟨{}, fun _ => true, [0x81, 10, 0, 17, 1, 0, 0, 5, 3, 12, 0x0C, 2, 0, 0, 9, 0x19, 76], 3, by decide +kernel⟩

end Bac.Props
