import Verif.Lemmas.Tags
/-!
# Lemmas about unsigned integers, object identifiers and application values
-/

namespace Bac

theorem minOctets_le4 (v : Nat) : Spec.minOctets v ≤ 4 := by
  unfold Spec.minOctets; split_ifs <;> omega

theorem valueLength_spec (v : UInt32) : valueLength v = Spec.minOctets v.toNat := by
  unfold valueLength Spec.minOctets
  have h1 : v < 0x100 ↔ v.toNat < 256 := u32_lt_iff v 256 (by norm_num)
  have h2 : v < 0x10000 ↔ v.toNat < 256 ^ 2 := u32_lt_iff v 65536 (by norm_num)
  have h3 : v < 0x1000000 ↔ v.toNat < 256 ^ 3 := u32_lt_iff v 16777216 (by norm_num)
  simp only [h1, h2, h3]

theorem value_append (a : List UInt8) (b : UInt8) :
    Spec.value (a ++ [b]) = Spec.value a * 256 + b.toNat := by
  simp [Spec.value, List.foldl_append]

theorem value_bigEndian (n v : Nat) : Spec.value (Spec.bigEndian n v) = v % 256 ^ n := by
  induction n generalizing v with
  | zero => simp [Spec.bigEndian, Spec.value, Nat.mod_one]
  | succ n ih =>
    rw [Spec.bigEndian, value_append, ih]
    simp only [UInt8.toNat_ofNat']
    have : 256 ^ (n + 1) = 256 * 256 ^ n := by rw [pow_succ, Nat.mul_comm]
    rw [this, Nat.mod_mul]
    norm_num
    omega

theorem length_bigEndian (n v : Nat) : (Spec.bigEndian n v).length = n := by
  induction n generalizing v with
  | zero => rfl
  | succ n ih => simp [Spec.bigEndian, ih]

namespace Enc

theorem unsigned24_eq (e : Enc) (v : UInt32) :
    e.unsigned24 v = e.write (Spec.bigEndian 3 v.toNat) := by
  have hv := v.toNat_lt
  unfold unsigned24
  simp only [write_write, Spec.bigEndian, List.nil_append, List.cons_append]
  congr 2
  · apply u8_ofNat_eq
    simp only [UInt32.toNat_toUInt8, UInt32.toNat_shiftRight, UInt32.toNat_and]
    simp only [UInt32.toNat_ofNat]
    norm_num
    rw [Nat.shiftRight_and_distrib]
    simp only [Nat.reduceShiftRight]
    rw [show (255 : Nat) = 2 ^ 8 - 1 by norm_num, Nat.and_two_pow_sub_one_eq_mod,
      Nat.shiftRight_eq_div_pow]
    omega
  congr 1
  · apply u8_ofNat_eq
    simp only [UInt32.toNat_toUInt8, UInt32.toNat_shiftRight, UInt32.toNat_and]
    simp only [UInt32.toNat_ofNat]
    norm_num
    rw [Nat.shiftRight_and_distrib]
    simp only [Nat.reduceShiftRight]
    rw [show (255 : Nat) = 2 ^ 8 - 1 by norm_num, Nat.and_two_pow_sub_one_eq_mod,
      Nat.shiftRight_eq_div_pow]
    omega
  congr 1
  apply u8_ofNat_eq
  simp only [UInt32.toNat_toUInt8, UInt32.toNat_and]
  simp only [UInt32.toNat_ofNat]
  norm_num
  rw [show (255 : Nat) = 2 ^ 8 - 1 by norm_num, Nat.and_two_pow_sub_one_eq_mod]
  omega

theorem unsigned_eq (e : Enc) (v : UInt32) :
    e.unsigned v = e.write (Spec.unsignedOctets v.toNat) := by
  unfold unsigned Spec.unsignedOctets Spec.minOctets
  have h1 : v < 0x100 ↔ v.toNat < 256 := u32_lt_iff v 256 (by norm_num)
  have h2 : v < 0x10000 ↔ v.toNat < 256 ^ 2 := u32_lt_iff v 65536 (by norm_num)
  have h3 : v < 0x1000000 ↔ v.toNat < 256 ^ 3 := u32_lt_iff v 16777216 (by norm_num)
  simp only [h1, h2, h3]
  split_ifs with a b c
  · simp only [Spec.bigEndian, List.nil_append]
    congr 2
    apply u8_ofNat_eq; simp
  · rw [be16_spec]
    have : v.toUInt16.toNat = v.toNat := by simp; omega
    rw [this]
  · exact unsigned24_eq e v
  · rw [be32_spec]

theorem ofNat_minOctets_toNat (v : Nat) :
    (UInt32.ofNat (Spec.minOctets v)).toNat = Spec.minOctets v := by
  rw [UInt32.toNat_ofNat_of_lt']; have := minOctets_le4 v
  exact lt_of_le_of_lt this (by norm_num)

theorem contextUnsigned_eq (e : Enc) (num : UInt8) (v : UInt32) :
    e.contextUnsigned num v = e.write (Spec.ctxUnsigned num.toNat v.toNat) := by
  unfold contextUnsigned Spec.ctxUnsigned
  rw [unsigned_eq, tag_eq, write_write, valueLength_spec, ofNat_minOctets_toNat]

theorem objectId_eq (e : Enc) (id : ObjectID) :
    e.objectId id = e.write (Spec.objectId (id.typ.toNat % 2 ^ 10) (id.inst.toNat % 2 ^ 22)) := by
  unfold objectId Spec.objectId
  rw [be32_spec]
  congr 2
  have ht := id.typ.toNat_lt
  have hi := id.inst.toNat_lt
  simp only [UInt32.toNat_or, UInt32.toNat_shiftLeft, UInt32.toNat_and, maxObject, maxInstance]
  simp only [UInt32.toNat_ofNat]
  norm_num
  rw [show (1023 : Nat) = 2 ^ 10 - 1 by norm_num, show (4194303 : Nat) = 2 ^ 22 - 1 by norm_num,
    Nat.and_two_pow_sub_one_eq_mod, Nat.and_two_pow_sub_one_eq_mod]
  rw [Nat.mod_eq_of_lt (by rw [Nat.shiftLeft_eq]; omega), Nat.or_comm, or_shl _ _ 22 (by omega)]
  norm_num

theorem contextObjectID_eq (e : Enc) (num : UInt8) (id : ObjectID) :
    e.contextObjectID num id =
      e.write (Spec.ctxObjectId num.toNat (id.typ.toNat % 2 ^ 10) (id.inst.toNat % 2 ^ 22)) := by
  unfold contextObjectID Spec.ctxObjectId
  rw [objectId_eq, tag_eq, write_write]
  rfl

end Enc

namespace Dec

theorem parses_unsigned24 (v : UInt32) (h : v.toNat < 256 ^ 3) :
    Parses unsigned24 (Spec.bigEndian 3 v.toNat) v := by
  have hsplit : Spec.bigEndian 3 v.toNat =
      [UInt8.ofNat (v.toNat / 256 / 256 % 256)] ++ ([UInt8.ofNat (v.toNat / 256 % 256)] ++
        [UInt8.ofNat (v.toNat % 256)]) := by
    simp [Spec.bigEndian]
  rw [hsplit]
  unfold unsigned24
  refine Parses.bind (parses_u8 _) (Parses.bind (parses_u8 _) (Parses.bind' (parses_u8 _) ?_))
  convert Parses.pure _ using 1
  apply UInt32.toNat_inj.mp
  simp only [UInt32.toNat_or, UInt32.toNat_and, UInt32.toNat_shiftLeft, UInt8.toNat_toUInt32,
    UInt8.toNat_ofNat']
  simp only [UInt32.toNat_ofNat]
  norm_num
  norm_num at h
  rw [show (255 : Nat) = 2 ^ 8 - 1 by norm_num, Nat.and_two_pow_sub_one_eq_mod]
  rw [Nat.mod_eq_of_lt (a := (v.toNat / 256 / 256 % 256) <<< 16) (by rw [Nat.shiftLeft_eq]; omega),
    Nat.mod_eq_of_lt (a := (v.toNat / 256 % 256) <<< 8) (by rw [Nat.shiftLeft_eq]; omega)]
  have e1 : (v.toNat / 256 / 256 % 256) <<< 16 &&& 16711680
      = (v.toNat / 256 / 256 % 256) <<< 16 := by
    rw [show (16711680 : Nat) = 255 <<< 16 by decide, ← Nat.shiftLeft_and_distrib,
      show (255 : Nat) = 2 ^ 8 - 1 by norm_num, Nat.and_two_pow_sub_one_eq_mod]
    congr 1; omega
  have e2 : (v.toNat / 256 % 256) <<< 8 &&& 65280 = (v.toNat / 256 % 256) <<< 8 := by
    rw [show (65280 : Nat) = 255 <<< 8 by decide, ← Nat.shiftLeft_and_distrib,
      show (255 : Nat) = 2 ^ 8 - 1 by norm_num, Nat.and_two_pow_sub_one_eq_mod]
    congr 1; omega
  rw [e1, e2, Nat.or_comm, Nat.or_comm ((v.toNat / 256 / 256 % 256) <<< 16), ← Nat.or_assoc,
    or_shl _ _ 8 (by omega), or_shl _ _ 16 (by omega)]
  omega

theorem parses_unsigned (v : UInt32) :
    Parses (unsigned (Spec.minOctets v.toNat)) (Spec.unsignedOctets v.toNat) v := by
  have hv := v.toNat_lt
  unfold Spec.unsignedOctets Spec.minOctets
  split_ifs with a b c
  · simp only [Spec.bigEndian, List.nil_append]
    unfold unsigned
    refine Parses.bind' (parses_u8 _) ?_
    have : (UInt8.ofNat (v.toNat % 256)).toUInt32 = v := by
      apply UInt32.toNat_inj.mp; simp; omega
    rw [this]; exact Parses.pure _
  · have hb : Spec.bigEndian 2 v.toNat = be16 v.toUInt16 := by
      rw [be16_spec]; congr 1; simp; omega
    rw [hb]
    unfold unsigned
    refine Parses.bind' (parses_be16 _) ?_
    have : v.toUInt16.toUInt32 = v := by
      apply UInt32.toNat_inj.mp; simp; omega
    rw [this]; exact Parses.pure _
  · exact parses_unsigned24 v c
  · rw [← be32_spec]; exact parses_be32 v

theorem parses_objectId (t i : Nat) (ht : t < 2 ^ 10) (hi : i < 2 ^ 22) :
    Parses objectId (Spec.objectId t i) ⟨UInt16.ofNat t, UInt32.ofNat i⟩ := by
  have hv : (UInt32.ofNat (t * 2 ^ 22 + i)).toNat = t * 2 ^ 22 + i := by
    rw [UInt32.toNat_ofNat_of_lt']; exact show _ < 4294967296 by omega
  have hb : Spec.objectId t i = be32 (UInt32.ofNat (t * 2 ^ 22 + i)) := by
    rw [be32_spec, hv]; rfl
  rw [hb]
  unfold objectId
  refine Parses.bind' (parses_be32 _) ?_
  convert Parses.pure _ using 1
  congr 1
  · apply UInt16.toNat_inj.mp
    simp only [UInt32.toNat_toUInt16, UInt32.toNat_and, UInt32.toNat_shiftRight, hv, maxObject]
    simp only [UInt32.toNat_ofNat]
    norm_num
    rw [show (1023 : Nat) = 2 ^ 10 - 1 by norm_num, Nat.and_two_pow_sub_one_eq_mod,
      Nat.shiftRight_eq_div_pow]
    omega
  · apply UInt32.toNat_inj.mp
    simp only [UInt32.toNat_and, hv, maxInstance]
    simp only [UInt32.toNat_ofNat]
    norm_num
    rw [show (4194303 : Nat) = 2 ^ 22 - 1 by norm_num, Nat.and_two_pow_sub_one_eq_mod]
    omega

end Dec

end Bac
