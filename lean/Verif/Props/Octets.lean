import Verif.Props.Incoming
/-!
# C37: exactly which messages are handed to a waiting call
-/

namespace Bac.Props

open Spec (NetHeader)

theorem nib_cases : ∀ t : UInt8, (t &&& 0xF0 = 0 ∧ t.toNat / 16 = 0 ∧ (t.toNat / 8 % 2 = 0 → checkMask t 0x08 = false)) ∨
    (t &&& 0xF0 = 0x10 ∧ t.toNat / 16 = 1) ∨ (t &&& 0xF0 = 0x20 ∧ t.toNat / 16 = 2) ∨ (t &&& 0xF0 = 0x30 ∧ t.toNat / 16 = 3) ∨
    (t &&& 0xF0 = 0x50 ∧ t.toNat / 16 = 5) ∨
    ((t &&& 0xF0 = 0x40 ∨ t &&& 0xF0 = 0x60 ∨ t &&& 0xF0 = 0x70 ∨ t ≥ 0x80) ∧ t.toNat / 16 ≠ 0 ∧ t.toNat / 16 ≠ 2 ∧ t.toNat / 16 ≠ 3) := by
  decide +kernel

/-- C37, exactly: the octets of a message of four or more octets are handed to the call that waits with an invoke id iff the
message is a SimpleACK or ComplexACK with this id - or a confirmed request with it.  (Segments of requests, whose header is
longer, are left out.) -/
theorem C37_exact (src : Address) (pending : UInt8 → Bool) (h : NetHeader) (hok : h.Ok) (f : UInt8) (hf : f = 10 ∨ f = 11)
    (t x y z : UInt8) (rest : List UInt8) (hs : t.toNat / 16 = 0 → t.toNat / 8 % 2 = 0) (id : UInt8) :
    let apdu := t :: x :: y :: z :: rest
    .deliver id (.apdu apdu) ∈ (handleMsg src pending (Spec.frame f (h.octets ++ apdu))).1 ↔
      ((Spec.pduType apdu = some 2 ∨ Spec.pduType apdu = some 3) ∧ x = id) ∨ (Spec.pduType apdu = some 0 ∧ y = id) := by
  intro apdu
  obtain ⟨l, hl⟩ := frame_octets f (h.octets ++ apdu)
  obtain ⟨p, hp⟩ := handleMsg_frame src pending 0x81 f l (h.octets ++ apdu) hf
  have he : ∀ r, (ended r).1 = r.1 := by
    rintro ⟨es, o⟩
    cases o <;> rfl
  have hty : ∀ n, Spec.pduType apdu = some n ↔ t.toNat / 16 = n := fun n => by simp [Spec.pduType, apdu]
  rw [hl, hp, he]
  simp only [hty]
  have none_ : ∀ {a : APDU} {e : Option GoErr} {d : Dec}, Dec.apdu ⟨apdu, lastOr p h.octets, none⟩ = .ok ((a, e), d) →
      (a.dataType = 0x10 ∨ a.dataType = 0x50 ∨ e.isSome) →
      .deliver id (.apdu apdu) ∉ (networkMsg src pending ⟨h.octets ++ apdu, p, none⟩).1 := by
    intro a e d ha hd hm
    rw [networkMsg_of src pending h.octets apdu (receivedHeader h) (header_parses h hok) rfl ha] at hm
    split_ifs at hm with hsome
    · cases hm
    · obtain ⟨-, hx⟩ := apduEffects_deliver hm
      rcases hd with hd | hd | hd
      · rw [hd] at hx; simp at hx
      · rw [hd] at hx; simp at hx
      · exact hsome hd
  have some_ : ∀ {a : APDU} {d : Dec}, Dec.apdu ⟨apdu, lastOr p h.octets, none⟩ = .ok ((a, none), d) →
      (a.dataType = 0x20 ∨ a.dataType = 0x30 ∨ a.dataType = 0x00) →
      (.deliver id (.apdu apdu) ∈ (networkMsg src pending ⟨h.octets ++ apdu, p, none⟩).1 ↔ a.invokeId = id) := by
    intro a d ha hd
    rw [networkMsg_of src pending h.octets apdu (receivedHeader h) (header_parses h hok) rfl ha]
    simp only [Option.isSome_none, Bool.false_eq_true, if_false]
    rw [apduEffects_octets _ _ _ _ _ hd]
    simp [eq_comm]
  rcases nib_cases t with ⟨h1, h2, h3⟩ | ⟨h1, h2⟩ | ⟨h1, h2⟩ | ⟨h1, h2⟩ | ⟨h1, h2⟩ | ⟨h1, h2, h3, h4⟩
  · obtain ⟨a, d, ha, -, -, hd, hi, -⟩ := Dec.apdu_request_run t x y z rest (lastOr p h.octets) h1 (h3 (hs h2))
    rw [some_ ha (.inr (.inr hd)), hi, h2]
    simp
  · obtain ⟨a, d, ha, hd, -⟩ := Dec.apdu_unconfirmed_run t x (y :: z :: rest) (lastOr p h.octets) h1
    rw [h2]
    simpa using none_ ha (.inl hd)
  · rw [some_ (Dec.parses_ack t x y (.inr h1) (lastOr p h.octets) (z :: rest)) (.inl h1), h2]
    simp
  · rw [some_ (Dec.parses_ack t x y (.inl h1) (lastOr p h.octets) (z :: rest)) (.inr (.inl h1)), h2]
    simp
  · obtain ⟨a, e, d, ha, hd, -⟩ := Dec.apdu_error_run t x (y :: z :: rest) (lastOr p h.octets) h1
    rw [h2]
    simpa using none_ ha (.inr (.inl hd))
  · obtain ⟨a, d, e, ha⟩ := Dec.apdu_unsupported_run t (x :: y :: z :: rest) (lastOr p h.octets) h1
    have := none_ ha (.inr (.inr rfl))
    simp [this, h2, h3, h4]

/-- A Reject is handed to nobody; a ReadProperty request of somebody else to the call that waits with its id. -/
example : (handleMsg {} (fun _ => true) (Spec.frame 10 ([1, 0] ++ [0x00, 5, 7, 12, 0x0C, 0, 0, 0, 1, 0x19, 85]))).1 =
      [.deliver 7 (.apdu [0x00, 5, 7, 12, 0x0C, 0, 0, 0, 1, 0x19, 85])] ∧
    (handleMsg {} (fun _ => true) (Spec.frame 10 ([1, 0] ++ [0x60, 7, 1, 0]))).1 = [] := by
  decide +kernel

end Bac.Props
