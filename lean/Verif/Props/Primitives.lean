import Verif.Lemmas.Values
/-!
# C01-C04: tags, unsigned integers, object identifiers
-/

namespace Bac.Props
open Bac

/-! ## C01 Tag headers round-trip -/

/-- C01 (primitive tags).  For every tag number, class and length: the header the
encoder writes, followed by anything, is read back as the same number, class and
length, as neither opening nor closing tag, and exactly the header is consumed. -/
theorem C01_tag_roundtrip (num : UInt8) (ctx : Bool) (v : UInt32) :
    ∃ meta_ : UInt8,
      Parses Dec.tagNumberAndValue
        (Enc.new.tag { id := num, context := ctx, value := v }).buf (num, meta_, v) ∧
      isContextSpecific meta_ = ctx ∧ isOpening meta_ = false ∧ isClosing meta_ = false := by
  obtain ⟨_, _, h3, h4, h5, _, _⟩ :=
    tagByte_facts ⟨_, Spec_numNibble_lt num.toNat⟩ ctx ⟨_, Spec_lenBits_lt v.toNat⟩
  refine ⟨tagByte (Spec.numNibble num.toNat) ctx (Spec.lenBits v.toNat), ?_, h5, h3, h4⟩
  rw [Enc.tag_eq, Enc.new_write_buf]
  exact Dec.parses_tagHeader num ctx v

/-- Non-trivial instance: tag 200, context class, length 70000, with trailing bytes. -/
example : (Enc.new.tag { id := 200, context := true, value := 70000 }).buf
      = [0xFD, 200, 255, 0, 1, 17, 112] ∧
    Dec.tagNumberAndValue (Dec.new [0xFD, 200, 255, 0, 1, 17, 112, 9, 9])
      = .ok ((200, 0xFD, 70000), ⟨[9, 9], some 112, none⟩) := by decide +kernel

/-- C01 (opening tags).  Read back as the same number, as opening and not closing. -/
theorem C01_opening_roundtrip (num : UInt8) :
    ∃ meta_ : UInt8,
      Parses Dec.tagNumberAndValue (Enc.new.openingTag num).buf (num, meta_, 0) ∧
      isOpening meta_ = true ∧ isClosing meta_ = false ∧ isContextSpecific meta_ = true := by
  obtain ⟨_, _, h3, h4, h5, _⟩ := open_facts ⟨_, Spec_numNibble_lt num.toNat⟩
  refine ⟨UInt8.ofNat (Spec.numNibble num.toNat * 16 + 14), ?_, h3, h4, h5⟩
  rw [Enc.tagNum_open, Enc.new_write_buf]
  exact Dec.parses_openTag num

example : (Enc.new.openingTag 3).buf = [0x3E] ∧ (Enc.new.openingTag 99).buf = [0xFE, 99] := by
  decide +kernel

/-- C01 (closing tags).  Read back as the same number, as closing. -/
theorem C01_closing_roundtrip (num : UInt8) :
    ∃ meta_ : UInt8,
      Parses Dec.tagNumberAndValue (Enc.new.closingTag num).buf (num, meta_, 0) ∧
      isClosing meta_ = true ∧ isContextSpecific meta_ = true := by
  obtain ⟨_, _, _, h4, h5, _⟩ := close_facts ⟨_, Spec_numNibble_lt num.toNat⟩
  refine ⟨UInt8.ofNat (Spec.numNibble num.toNat * 16 + 15), ?_, h4, h5⟩
  rw [Enc.tagNum_close, Enc.new_write_buf]
  exact Dec.parses_closeTag num

example : (Enc.new.closingTag 3).buf = [0x3F] ∧ (Enc.new.closingTag 99).buf = [0xFF, 99] := by
  decide +kernel

/-! ## C02 Tag headers follow the BACnet layout -/

/-- C02.  The octets of every tag header are those of clause 20.2.1. -/
theorem C02_tag_layout (num : UInt8) (ctx : Bool) (v : UInt32) :
    (Enc.new.tag { id := num, context := ctx, value := v }).buf
      = Spec.tagHeader num.toNat ctx v.toNat ∧
    (Enc.new.openingTag num).buf = Spec.openTag num.toNat ∧
    (Enc.new.closingTag num).buf = Spec.closeTag num.toNat := by
  rw [Enc.tag_eq, Enc.tagNum_open, Enc.tagNum_close]
  simp only [Enc.new_write_buf, and_self]

/-- Clause 20.2.1 examples: one per shape of the header. -/
example : Spec.tagHeader 2 false 4 = [0x24] ∧ Spec.tagHeader 2 true 5 = [0x2D, 5] ∧
    Spec.tagHeader 15 true 300 = [0xFD, 15, 254, 1, 44] ∧
    Spec.tagHeader 14 false 65536 = [0xE5, 255, 0, 1, 0, 0] ∧
    Spec.openTag 4 = [0x4E] ∧ Spec.closeTag 4 = [0x4F] ∧ Spec.closeTag 20 = [0xFF, 20] := by
  decide +kernel

/-! ## C03 Unsigned integers -/

/-- C03 (layout).  A context-tagged unsigned is the header announcing the least
sufficient number of octets, followed by the big-endian octets. -/
theorem C03_context_unsigned_layout (num : UInt8) (v : UInt32) :
    (Enc.new.contextUnsigned num v).buf
      = Spec.tagHeader num.toNat true (Spec.minOctets v.toNat)
        ++ Spec.bigEndian (Spec.minOctets v.toNat) v.toNat ∧
    (Enc.new.contextEnumerated num v).buf = (Enc.new.contextUnsigned num v).buf := by
  refine ⟨?_, rfl⟩
  rw [Enc.contextUnsigned_eq, Enc.new_write_buf]; rfl

/-- C03 (minimal).  The number of octets written holds the value, fewer octets
do not, and the octets denote the value. -/
theorem C03_unsigned_minimal (v : UInt32) :
    Spec.value (Enc.new.unsigned v).buf = v.toNat ∧
    1 ≤ (Enc.new.unsigned v).buf.length ∧
    Spec.Fits (Enc.new.unsigned v).buf.length v.toNat ∧
    (∀ k, 1 ≤ k → Spec.Fits k v.toNat → (Enc.new.unsigned v).buf.length ≤ k) ∧
    valueLength v = (Enc.new.unsigned v).buf.length := by
  have hv := v.toNat_lt
  rw [Enc.unsigned_eq, Enc.new_write_buf, valueLength_spec]
  have hlen : (Spec.unsignedOctets v.toNat).length = Spec.minOctets v.toNat :=
    length_bigEndian _ _
  have hfit : Spec.Fits (Spec.minOctets v.toNat) v.toNat := by
    unfold Spec.Fits Spec.minOctets
    split_ifs <;> omega
  refine ⟨?_, ?_, ?_, ?_, hlen.symm⟩
  · unfold Spec.unsignedOctets
    rw [value_bigEndian]
    exact Nat.mod_eq_of_lt hfit
  · rw [hlen]; unfold Spec.minOctets; split_ifs <;> omega
  · rw [hlen]; exact hfit
  · intro k hk hf
    rw [hlen]
    unfold Spec.Fits at hf
    unfold Spec.minOctets
    by_contra hc
    have : k = 1 ∨ k = 2 ∨ k = 3 ∨ 4 ≤ k := by omega
    rcases this with rfl | rfl | rfl | h4
    · split_ifs at hc <;> omega
    · split_ifs at hc <;> omega
    · split_ifs at hc <;> omega
    · split_ifs at hc <;> omega

/-- C03 (round trip).  With the announced length the decoder returns the value
and consumes exactly the octets written; likewise for enumerated values. -/
theorem C03_unsigned_roundtrip (v : UInt32) :
    Parses (Dec.unsigned (valueLength v)) (Enc.new.unsigned v).buf v ∧
    Parses (Dec.enumerated (valueLength v)) (Enc.new.enumerated v).buf v := by
  have h : Parses (Dec.unsigned (valueLength v)) (Enc.new.unsigned v).buf v := by
    rw [Enc.unsigned_eq, Enc.new_write_buf, valueLength_spec]
    exact Dec.parses_unsigned v
  exact ⟨h, h⟩

example : (Enc.new.unsigned 0).buf = [0] ∧ (Enc.new.unsigned 256).buf = [1, 0] ∧
    (Enc.new.unsigned 70000).buf = [1, 17, 112] ∧
    (Enc.new.unsigned 4294967295).buf = [255, 255, 255, 255] ∧
    (Enc.new.contextUnsigned 2 70000).buf = [0x2B, 1, 17, 112] := by decide +kernel

/-! ## C04 Object identifiers -/

/-- The identifiers BACnet can carry: ten bits of type, 22 bits of instance. -/
def C04_Valid (id : ObjectID) : Prop := id.typ.toNat < 2 ^ 10 ∧ id.inst.toNat < 2 ^ 22

/-- C04, the claim as stated (for every `uint16` type and `uint32` instance)
fails: the encoder masks, so two different identifiers are written alike and no
error is recorded. -/
theorem C04_fails_alias : ∃ a b : ObjectID, a ≠ b ∧
    (Enc.new.objectId a).buf = (Enc.new.objectId b).buf ∧
    (Enc.new.objectId a).err = none ∧ (Enc.new.objectId b).err = none :=
  ⟨⟨8, 5⟩, ⟨8, 4194304 + 5⟩, by decide, by decide, rfl, rfl⟩

/-- C04, exactly what does happen for *every* identifier: it is written as type
mod 2^10 and instance mod 2^22, and read back as that. -/
theorem C04_objectid_exact (id : ObjectID) :
    (Enc.new.objectId id).buf
      = Spec.bigEndian 4 (id.typ.toNat % 2 ^ 10 * 2 ^ 22 + id.inst.toNat % 2 ^ 22) ∧
    Parses Dec.objectId (Enc.new.objectId id).buf
      ⟨UInt16.ofNat (id.typ.toNat % 2 ^ 10), UInt32.ofNat (id.inst.toNat % 2 ^ 22)⟩ := by
  rw [Enc.objectId_eq, Enc.new_write_buf]
  exact ⟨rfl, Dec.parses_objectId _ _ (Nat.mod_lt _ (by norm_num)) (Nat.mod_lt _ (by norm_num))⟩

/-- C04 for valid identifiers: round trip. Missing from the full claim: types
above 1023 and instances above 4194303 (see `C04_fails_alias`). -/
theorem C04_objectid_roundtrip_partial (id : ObjectID) (h : C04_Valid id) :
    Parses Dec.objectId (Enc.new.objectId id).buf id := by
  have := (C04_objectid_exact id).2
  rwa [Nat.mod_eq_of_lt h.1, Nat.mod_eq_of_lt h.2,
    show (⟨UInt16.ofNat id.typ.toNat, UInt32.ofNat id.inst.toNat⟩ : ObjectID) = id by
      rcases id with ⟨t, i⟩; simp] at this

/-- C04: the round trip holds *only* for valid identifiers, so validity is the
exact boundary of the property. -/
theorem C04_roundtrip_iff_valid (id : ObjectID) :
    Parses Dec.objectId (Enc.new.objectId id).buf id ↔ C04_Valid id := by
  refine ⟨fun h => ?_, C04_objectid_roundtrip_partial id⟩
  have h2 := (C04_objectid_exact id).2
  have := (h none []).symm.trans (h2 none [])
  simp only [Outcome.ok.injEq, Prod.mk.injEq, and_true] at this
  have ht := congrArg (fun i : ObjectID => i.typ.toNat) this
  have hi := congrArg (fun i : ObjectID => i.inst.toNat) this
  simp only [UInt16.toNat_ofNat', UInt32.toNat_ofNat'] at ht hi
  have := id.typ.toNat_lt; have := id.inst.toNat_lt
  constructor <;> omega

/-- C04 for valid identifiers: never aliased. -/
theorem C04_objectid_injective_partial (a b : ObjectID) (ha : C04_Valid a) (hb : C04_Valid b)
    (h : (Enc.new.objectId a).buf = (Enc.new.objectId b).buf) : a = b := by
  have h1 := C04_objectid_roundtrip_partial a ha none []
  have h2 := C04_objectid_roundtrip_partial b hb none []
  rw [h, h2] at h1
  simp only [Outcome.ok.injEq, Prod.mk.injEq] at h1
  exact h1.1.symm

/-- A valid identifier other than zero: device 1234. -/
example : C04_Valid ⟨8, 1234⟩ ∧ (Enc.new.objectId ⟨8, 1234⟩).buf = [2, 0, 4, 210] := by
  constructor
  · constructor <;> decide
  · decide

end Bac.Props
