import Verif.Props.Calls
import Verif.Props.DataLink
/-!
# C159: what an address was declared to be is what it is taken for
-/

namespace Bac.Props

/-- C159, exactly, for every address: what is said last counts and nothing else changes; a declared broadcast is
one, but its frame is a broadcast only without a station address; an address declared as none is one
nevertheless on the global network and with a hardware address of 0, 256, ... octets, and a unicast
address exactly with 6, 262, ... octets. -/
theorem C159_exact (a : Address) (b : Bool) :
    (∀ b', (a.setBroadcast b).setBroadcast b' = a.setBroadcast b') ∧
    ((a.setBroadcast b).udpAddr = a.udpAddr ∧ (a.setBroadcast b).net = a.net ∧ (a.setBroadcast b).adr = a.adr ∧
      (a.setBroadcast b).len = a.len ∧ (a.setBroadcast b).mac = a.mac) ∧
    ((a.setBroadcast true).isBroadcast = true ∧ (a.setBroadcast true).isUnicast = false) ∧
    ((a.setBroadcast false).isBroadcast = true ↔ a.net.toNat = 65535 ∨ a.mac.length % 256 = 0) ∧
    ((a.setBroadcast false).isUnicast = true ↔ a.mac.length % 256 = 6) ∧
    (sendFunction (a.setBroadcast true) none = 11 ↔ a.adr = []) ∧
    (sendFunction (a.setBroadcast false) none = 11 ↔
      a.adr = [] ∧ (a.net.toNat = 65535 ∨ a.mac.length % 256 = 0 ∨ a.net.toNat ≠ 0 ∧ a.len.toNat = 0)) := by
  have hm : ∀ n k : Nat, k < 256 → (UInt8.ofNat n = UInt8.ofNat k ↔ n % 256 = k) := by
    intro n k hk
    rw [← UInt8.toNat_inj, UInt8.toNat_ofNat', UInt8.toNat_ofNat']
    show n % 256 = k % 256 ↔ _
    rw [Nat.mod_eq_of_lt hk]
  have hn : a.net = 0xFFFF ↔ a.net.toNat = 65535 := by rw [← UInt16.toNat_inj]; rfl
  have h0 : a.net > 0 ↔ a.net.toNat ≠ 0 := by
    rw [gt_iff_lt, UInt16.lt_iff_toNat_lt]
    show 0 < a.net.toNat ↔ _
    omega
  have hl : a.len = 0 ↔ a.len.toNat = 0 := by rw [← UInt8.toNat_inj]; rfl
  have z : UInt8.ofNat a.mac.length = 0 ↔ a.mac.length % 256 = 0 := hm a.mac.length 0 (by decide)
  have six : UInt8.ofNat a.mac.length = 6 ↔ a.mac.length % 256 = 6 := hm a.mac.length 6 (by decide)
  have hadr : a.adr.length > 0 ↔ a.adr ≠ [] := by
    rw [gt_iff_lt, List.length_pos_iff]
  refine ⟨?_, ?_, ?_, ?_, ?_, ?_, ?_⟩
  · intro b'
    cases b <;> cases b' <;> rfl
  · cases b <;> exact ⟨rfl, rfl, rfl, rfl, rfl⟩
  · simp [Address.setBroadcast, Address.isBroadcast, Address.isUnicast]
  · simp [Address.setBroadcast, Address.isBroadcast, hn, z]
  · simp [Address.setBroadcast, Address.isUnicast, six]
  · by_cases h : a.adr = []
    · simp [sendFunction, Address.setBroadcast, Address.isBroadcast, h]
    · have : a.adr.length > 0 := hadr.2 h
      simp only [sendFunction, Address.setBroadcast, if_true, if_pos this, h, iff_false]
      decide
  · by_cases h : a.adr = []
    · simp only [sendFunction, Address.setBroadcast, Address.isBroadcast, Address.isSubBroadcast, h, List.length_nil,
        gt_iff_lt, Nat.lt_irrefl, if_false, Bool.false_eq_true, true_and, Bool.or_eq_true, Bool.and_eq_true, decide_eq_true_eq,
        hn, z]
      rw [gt_iff_lt] at h0
      simp only [h0, hl, or_assoc]
      split
      · next hc => exact ⟨fun _ => hc, fun _ => rfl⟩
      · next hc => exact ⟨fun e => absurd e (by decide), fun e => absurd e hc⟩
    · have : a.adr.length > 0 := hadr.2 h
      simp only [sendFunction, Address.setBroadcast, Bool.false_eq_true, if_false, if_pos this, h, false_and, iff_false]
      decide

/-- C159 for the addresses of the local network, with a hardware address of six octets and without station
address: declared a broadcast it is one and no unicast address, and so is the frame; declared none it is a
unicast address and no broadcast, and so is the frame.  Missing: see `C159_fails`. -/
theorem C159_partial (a : Address) (hn : a.net = 0) (hm : a.mac.length = 6) (ha : a.adr = []) (b : Bool) :
    (a.setBroadcast b).isBroadcast = b ∧ (a.setBroadcast b).isUnicast = !b ∧
    sendFunction (a.setBroadcast b) none = if b then 11 else 10 := by
  cases b <;>
    simp [Address.setBroadcast, Address.isBroadcast, Address.isUnicast, Address.isSubBroadcast, sendFunction, hn, hm, ha]

/-- C159 fails: a station behind a router that is declared a broadcast address is sent unicast frames; an address
of the global network that is declared none is both broadcast and unicast; an empty hardware address
is a broadcast whatever is declared. -/
theorem C159_fails (a : Address) :
    (a.adr ≠ [] → sendFunction (a.setBroadcast true) none ≠ 11) ∧
    (a.net = 0xFFFF → a.mac.length = 6 → (a.setBroadcast false).isBroadcast = true ∧ (a.setBroadcast false).isUnicast = true) ∧
    (a.mac = [] → (a.setBroadcast false).isBroadcast = true) := by
  obtain ⟨_, _, _, h1, h2, h3, _⟩ := C159_exact a true
  refine ⟨fun h hc => h (h3.1 hc), fun hn hm => ⟨h1.2 (Or.inl (by rw [hn]; rfl)), h2.2 (by rw [hm])⟩, fun h => h1.2 (Or.inr (by rw [h]; rfl))⟩

example : let a : Address := { mac := [10, 0, 0, 9, 0xBA, 0xC0], macLen := 6 }
    (a.setBroadcast true).isBroadcast = true ∧ ((a.setBroadcast true).setBroadcast false) = a ∧
    sendFunction ({ a with net := 5, len := 1, adr := [7] }.setBroadcast true) none = 10 := by decide

end Bac.Props
