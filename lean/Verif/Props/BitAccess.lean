import Verif.Props.BitStrings
/-!
# C160: the octets of a bit string
-/

namespace Bac.Props
open Bac

theorem testBit_reverse : ∀ (b : UInt8) (j : Fin 8), (byteReverseBits b).toNat.testBit j.val = b.toNat.testBit (7 - j.val) := by
  decide +kernel

/-- `BytesUsed` is the least number of octets that holds the bits used, for every bit string. -/
theorem C160_bytes (bs : BitString) (n : Nat) : bs.bytesUsed.toNat ≤ n ↔ bs.bitUsed.toNat ≤ 8 * n := by
  obtain ⟨b, v⟩ := bs
  have key : ∀ b : UInt8, (BitString.bytesUsed ⟨b, v⟩).toNat = (b.toNat + 7) / 8 := by
    intro b
    have hb := b.toNat_lt
    unfold BitString.bytesUsed
    simp only [gt_iff_lt, UInt8.lt_iff_toNat_lt]
    split
    · next h =>
      have h0 : 0 < b.toNat := h
      have h1 : (b - 1).toNat = b.toNat - 1 := UInt8.toNat_sub_of_le _ _ (by rw [UInt8.le_iff_toNat_le]; exact h0)
      rw [UInt8.toNat_add, UInt8.toNat_div, h1]
      show ((b.toNat - 1) / 8 + 1) % 256 = _
      omega
    · next h =>
      have h0 : ¬ 0 < b.toNat := h
      show 0 = _
      omega
  rw [key]
  show _ ↔ b.toNat ≤ 8 * n
  omega

/-- C160, exactly: asking for an octet crashes iff its number is below fifteen and the bit string has no such octet. -/
theorem C160_exact (bs : BitString) (i : UInt8) :
    (bs.byte i).Panics ↔ i.toNat < 15 ∧ bs.value.length ≤ i.toNat := by
  unfold BitString.byte
  have hi : i < 15 ↔ i.toNat < 15 := UInt8.lt_iff_toNat_lt
  by_cases h : i < 15
  · rw [if_pos h]
    by_cases hl : i.toNat < bs.value.length
    · rw [List.getElem?_eq_getElem hl]
      exact ⟨fun h => h.elim, fun h => absurd h.2 (by omega)⟩
    · rw [List.getElem?_eq_none (by omega)]
      exact ⟨fun _ => ⟨hi.mp h, by omega⟩, fun _ => trivial⟩
  · rw [if_neg h]
    exact ⟨fun h => h.elim, fun h' => absurd (hi.mpr h'.1) h⟩

/-- C160 for up to fifteen octets and octets that are there, or beyond the fifteen: the number of octets and of bits with
room, and octet `i` has the transmitted bits `8 i … 8 i + 7`, the first of them as its least significant bit.  Missing: octets
between those received and the fifteenth (`C160_fails`), longer bit strings (`C160_fails_long`). -/
theorem C160_partial (u : UInt8) (data : List UInt8) (hu : u.toNat < 8) (hk : data.length ≤ 15) (h0 : data = [] → u = 0) :
    ∃ bs, Parses (Dec.appDataOfTag 8 (data.length + 1)) (u :: data) (.bits (some bs), none) ∧
      bs.bytesUsed.toNat = data.length ∧ bs.bitsCapacity.toNat = 8 * data.length ∧
      (∀ i : UInt8, i.toNat < data.length → ∃ b, bs.byte i = .ok b ∧
        ∀ j < 8, (Spec.bitsOf data)[8 * i.toNat + j]? = some (b.toNat.testBit j)) ∧
      ∀ i : UInt8, 15 ≤ i.toNat → bs.byte i = .ok 0 := by
  obtain ⟨bs, h1, h2, -⟩ := C12_bitstring_partial u data hu hk h0
  obtain ⟨bs', h3, h4, h5, -⟩ := bits_parses u data
  have he := Parses.unique h1 h4
  injection he with he _
  injection he with he
  injection he with he
  subst he
  have hv := bitStringOf_short u data hk
  rw [h3] at hv
  injection hv with hv
  refine ⟨bs, h1, ?_, ?_, ?_, ?_⟩
  · have ha := C160_bytes bs data.length
    have hb := C160_bytes bs (data.length - 1)
    rw [h2] at ha hb
    by_cases hd : data = []
    · subst hd
      have := ha.mpr (by omega)
      exact Nat.le_zero.mp this
    · have : 0 < data.length := List.length_pos_iff.mpr hd
      have := ha.mpr (by omega)
      have : ¬ bs.bytesUsed.toNat ≤ data.length - 1 := fun h => by have := hb.mp h; omega
      omega
  · unfold BitString.bitsCapacity
    rw [h5]
    simp
    omega
  · intro i hi
    have hi' : i < 15 := by rw [UInt8.lt_iff_toNat_lt]; exact Nat.lt_of_lt_of_le hi hk
    refine ⟨byteReverseBits data[i.toNat], ?_, ?_⟩
    · unfold BitString.byte
      rw [if_pos hi', hv]
      simp only [List.getElem?_map, List.getElem?_eq_getElem hi, Option.map_some]
    · intro j hj
      have hr := testBit_reverse data[i.toNat] ⟨j, hj⟩
      simp only at hr
      rw [bitsOf_eq, List.getElem?_map, List.getElem?_range (by omega)]
      simp only [Option.map_some, show (8 * i.toNat + j) / 8 = i.toNat by omega, show (8 * i.toNat + j) % 8 = j by omega,
        List.getElem?_eq_getElem hi, Option.getD_some, hr]
  · intro i hi
    unfold BitString.byte
    rw [if_neg]
    rw [UInt8.lt_iff_toNat_lt]
    exact Nat.not_lt.mpr hi

/-- C160 fails: of every bit string received with fewer than fifteen octets, asking for the octet after the last crashes, and
asking for the sixteenth does not. -/
theorem C160_fails (u : UInt8) (data : List UInt8) (hk : data.length < 15) :
    ∃ bs, Parses (Dec.appDataOfTag 8 (data.length + 1)) (u :: data) (.bits (some bs), none) ∧
      (bs.byte (UInt8.ofNat data.length)).Panics ∧ bs.byte 15 = .ok 0 := by
  obtain ⟨bs, -, h1, h2, -⟩ := bits_parses u data
  refine ⟨bs, h1, ?_, rfl⟩
  rw [C160_exact, h2]
  simp
  omega

/-- C160 fails: of a bit string of sixteen to 255 octets nothing counts as used, though fifteen octets are kept. -/
theorem C160_fails_long (u : UInt8) (data : List UInt8) (h16 : 16 ≤ data.length) (h255 : data.length < 256) :
    ∃ bs, Parses (Dec.appDataOfTag 8 (data.length + 1)) (u :: data) (.bits (some bs), none) ∧
      bs.bytesUsed = 0 ∧ bs.bitsCapacity = 120 ∧ ∀ i, bs.byte i = .ok 0 := by
  obtain ⟨bs, h0, h1, h2, -⟩ := bits_parses u data
  have hn : ¬ UInt8.ofNat data.length ≤ 15 := by
    rw [UInt8.le_iff_toNat_le]
    simp
    omega
  unfold Dec.bitStringOf at h0
  simp only [Nat.add_sub_cancel, hn, if_false] at h0
  injection h0 with h0
  refine ⟨bs, h1, by rw [← h0]; rfl, ?_, fun i => ?_⟩
  · unfold BitString.bitsCapacity
    rw [h2, Nat.min_eq_right (by omega)]
    rfl
  · rw [← h0]
    have hv : (BitString.new data.length).value = List.replicate 15 0 := by
      simp only [BitString.new, BitString.maxBytes]
      rw [Nat.min_eq_right (by omega)]
    unfold BitString.byte
    split
    · next h =>
      have h' : i.toNat < 15 := UInt8.lt_iff_toNat_lt.mp h
      rw [hv, List.getElem?_replicate, if_pos h']
    · rfl

example : ∃ bs, Dec.bitStringOf 3 [5, 0xC1, 0xA0] = .ok bs ∧ bs.bitUsed = 11 ∧ bs.bytesUsed = 2 ∧ bs.bitsCapacity = 16 ∧
    bs.byte 0 = .ok 0x83 ∧ bs.byte 1 = .ok 0x05 ∧ bs.byte 2 = .panic .indexOutOfRange ∧ bs.byte 15 = .ok 0 := by
  exact ⟨_, rfl, by decide +kernel⟩

end Bac.Props
