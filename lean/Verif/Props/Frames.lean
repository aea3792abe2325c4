import Verif.Props.Incoming
/-!
# C76: which frames have which effect, exactly
-/

namespace Bac.Props

/-- What is handed to the network layer does not depend on the octets before it. -/
theorem npdu_before (payload : List UInt8) (p q : Option UInt8) :
    Dec.npdu ⟨payload, p, none⟩ = Dec.npdu ⟨payload, q, none⟩ := by
  cases payload with
  | nil => rfl
  | cons x l => rfl

theorem networkMsg_before (src : Address) (pending : UInt8 → Bool) (payload : List UInt8) (p q : Option UInt8) :
    networkMsg src pending ⟨payload, p, none⟩ = networkMsg src pending ⟨payload, q, none⟩ := by
  unfold networkMsg
  rw [npdu_before payload p q]

/-- C76, exactly: a datagram of fewer than four octets has no effect; any other has the effects of the well-formed
unicast frame with the same payload if its second octet is one of three functions, whatever its type and
length octets are, and no effect otherwise. -/
theorem C76_exact (src : Address) (pending : UInt8 → Bool) (b : List UInt8) :
    (b.length < 4 → (handleMsg src pending b).1 = []) ∧
    (∀ t f l1 l2 payload, b = t :: f :: l1 :: l2 :: payload →
      (f.toNat = 4 ∨ f.toNat = 10 ∨ f.toNat = 11 → (handleMsg src pending b).1 = (handleMsg src pending (_root_.Spec.frame 10 payload)).1) ∧
      (f.toNat = 10 ∨ f.toNat = 11 → handleMsg src pending b = handleMsg src pending (_root_.Spec.frame 10 payload)) ∧
      (¬ (f.toNat = 4 ∨ f.toNat = 10 ∨ f.toNat = 11) → handleMsg src pending b = ([], .ok ()))) := by
  have h16 : ∀ x y : UInt8, ∃ l : UInt16, [x, y] = be16 l := by
    intro x y
    refine ⟨rd16 x y, ?_⟩
    have h1 := rd16_toNat x y
    have hx := x.toNat_lt
    have hy := y.toNat_lt
    unfold be16
    congr 1
    · apply UInt8.toNat_inj.mp
      simp [Nat.shiftRight_eq_div_pow, h1]; omega
    · congr 1
      apply UInt8.toNat_inj.mp
      simp [h1]
  refine ⟨fun h => C76_partial src pending b (Or.inl h), ?_⟩
  rintro t f l1 l2 payload rfl
  obtain ⟨l, hl⟩ := h16 l1 l2
  have hb : t :: f :: l1 :: l2 :: payload = [t, f] ++ be16 l ++ payload := by rw [← hl]; rfl
  obtain ⟨x, y, hxy⟩ : ∃ x y : UInt8, _root_.Spec.bigEndian 2 (4 + payload.length) = [x, y] := ⟨_, _, rfl⟩
  obtain ⟨l', hl'⟩ := h16 x y
  have hg : _root_.Spec.frame 10 payload = [0x81, 10] ++ be16 l' ++ payload := by
    rw [_root_.Spec.frame, hxy, hl']
  rw [hb, hg]
  have e : ∀ k : Nat, k < 256 → (f.toNat = k ↔ f = UInt8.ofNat k) := by
    intro k hk
    rw [← UInt8.toNat_inj, UInt8.toNat_ofNat', Nat.mod_eq_of_lt hk]
  have e4 := e 4 (by decide)
  have e10 := e 10 (by decide)
  have e11 := e 11 (by decide)
  obtain ⟨q, hq⟩ := handleMsg_run src pending 0x81 10 l' payload (Or.inr (Or.inl rfl))
  refine ⟨fun h => ?_, fun h => ?_, fun h => ?_⟩
  · obtain ⟨p, hp⟩ := handleMsg_run src pending t f l payload
      (h.elim (fun h => Or.inr (Or.inr (e4.1 h))) fun h => h.elim (fun h => Or.inr (Or.inl (e10.1 h))) fun h => Or.inl (e11.1 h))
    rw [hp, hq, endedFor_fst, endedFor_fst, networkMsg_before src pending payload p q]
  · obtain ⟨p, hp⟩ := handleMsg_frame src pending t f l payload (h.elim (fun h => Or.inl (e10.1 h)) fun h => Or.inr (e11.1 h))
    obtain ⟨r, hr⟩ := handleMsg_frame src pending 0x81 10 l' payload (Or.inl rfl)
    rw [hp, hr, networkMsg_before src pending payload p r]
  · exact handleMsg_other src pending t f l payload fun hc =>
      h (hc.elim (fun h => Or.inr (Or.inr (e11.2 h))) fun h => h.elim (fun h => Or.inr (Or.inl (e10.2 h))) fun h => Or.inl (e4.2 h))

/-- A simple acknowledgement in a frame of another protocol that announces 65535 octets completes the request as
that in a well-formed frame does; with function 9 it does not. -/
example : (handleMsg {} (fun _ => true) [0x42, 11, 0xFF, 0xFF, 1, 0, 0x20, 7, 15]).1 = [.deliver 7 (.apdu [0x20, 7, 15])] ∧
    (handleMsg {} (fun _ => true) (_root_.Spec.frame 10 [1, 0, 0x20, 7, 15])).1 = [.deliver 7 (.apdu [0x20, 7, 15])] ∧
    (handleMsg {} (fun _ => true) (_root_.Spec.frame 9 [1, 0, 0x20, 7, 15])).1 = [] := by decide +kernel

end Bac.Props
