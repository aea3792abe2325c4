import Verif.Lemmas.Core
/-!
# Lemmas about tag headers
-/

namespace Bac

/-! ## Conversions to natural numbers -/

theorem u32_le_iff (a : UInt32) (n : Nat) (hn : n < 2 ^ 32) :
    a ≤ UInt32.ofNat n ↔ a.toNat ≤ n := by
  rw [UInt32.le_iff_toNat_le, UInt32.toNat_ofNat_of_lt' hn]

theorem u32_lt_iff (a : UInt32) (n : Nat) (hn : n < 2 ^ 32) :
    a < UInt32.ofNat n ↔ a.toNat < n := by
  rw [UInt32.lt_iff_toNat_lt, UInt32.toNat_ofNat_of_lt' hn]

theorem u8_le_iff (a : UInt8) (n : Nat) (hn : n < 2 ^ 8) :
    a ≤ UInt8.ofNat n ↔ a.toNat ≤ n := by
  rw [UInt8.le_iff_toNat_le, UInt8.toNat_ofNat_of_lt' hn]

theorem u32_toUInt8 (a : UInt32) : a.toUInt8 = UInt8.ofNat a.toNat := by
  apply UInt8.toNat_inj.mp; simp

theorem u8_ofNat_toNat (a : UInt8) : UInt8.ofNat a.toNat = a := by
  apply UInt8.toNat_inj.mp; simp

/-! ## The initial octet -/

/-- The initial octet of a tag as the standard describes it. -/
def tagByte (nib : Nat) (ctx : Bool) (low : Nat) : UInt8 :=
  UInt8.ofNat (nib * 16 + (if ctx then 8 else 0) + low)

theorem tagByte_facts : ∀ (nib : Fin 16) (ctx : Bool) (low : Fin 6),
    isExtendedTagNumber (tagByte nib ctx low) = decide (nib.val = 15) ∧
    isExtendedValue (tagByte nib ctx low) = decide (low.val = 5) ∧
    isOpening (tagByte nib ctx low) = false ∧
    isClosing (tagByte nib ctx low) = false ∧
    isContextSpecific (tagByte nib ctx low) = ctx ∧
    tagByte nib ctx low &&& 7 = UInt8.ofNat low ∧
    tagByte nib ctx low >>> 4 = UInt8.ofNat nib := by
  decide +kernel

theorem open_facts : ∀ (nib : Fin 16),
    isExtendedTagNumber (UInt8.ofNat (nib * 16 + 14)) = decide (nib.val = 15) ∧
    isExtendedValue (UInt8.ofNat (nib * 16 + 14)) = false ∧
    isOpening (UInt8.ofNat (nib * 16 + 14)) = true ∧
    isClosing (UInt8.ofNat (nib * 16 + 14)) = false ∧
    isContextSpecific (UInt8.ofNat (nib * 16 + 14)) = true ∧
    UInt8.ofNat (nib * 16 + 14) >>> 4 = UInt8.ofNat nib := by
  decide +kernel

theorem close_facts : ∀ (nib : Fin 16),
    isExtendedTagNumber (UInt8.ofNat (nib * 16 + 15)) = decide (nib.val = 15) ∧
    isExtendedValue (UInt8.ofNat (nib * 16 + 15)) = false ∧
    isOpening (UInt8.ofNat (nib * 16 + 15)) = true ∧
    isClosing (UInt8.ofNat (nib * 16 + 15)) = true ∧
    isContextSpecific (UInt8.ofNat (nib * 16 + 15)) = true ∧
    UInt8.ofNat (nib * 16 + 15) >>> 4 = UInt8.ofNat nib := by
  decide +kernel

theorem or_facts : ∀ (nib : Fin 16) (ctx : Bool) (low : Fin 6),
    ((if ctx then setContextSpecific 0 else 0) ||| UInt8.ofNat low) ||| (UInt8.ofNat nib <<< 4)
      = tagByte nib ctx low ∧
    (nib.val = 15 →
      ((if ctx then setContextSpecific 0 else 0) ||| UInt8.ofNat low) ||| 0xF0
        = tagByte nib ctx low) := by
  decide +kernel

theorem or_facts_oc : ∀ (nib : Fin 16),
    setOpening 0 ||| (UInt8.ofNat nib <<< 4) = UInt8.ofNat (nib * 16 + 14) ∧
    setClosing 0 ||| (UInt8.ofNat nib <<< 4) = UInt8.ofNat (nib * 16 + 15) := by
  decide +kernel

theorem Spec_numNibble_lt (n : Nat) : Spec.numNibble n < 16 := by
  unfold Spec.numNibble; split <;> omega

theorem Spec_lenBits_lt (n : Nat) : Spec.lenBits n < 6 := by
  unfold Spec.lenBits; split <;> omega

/-! ## Encoder -/

namespace Enc

theorem tagNum_open (e : Enc) (num : UInt8) :
    e.openingTag num = e.write (Spec.openTag num.toNat) := by
  unfold openingTag tagNum Spec.openTag Spec.numNibble Spec.numExt
  have h14 : num ≤ 14 ↔ num.toNat ≤ 14 := u8_le_iff num 14 (by norm_num)
  by_cases h : num.toNat ≤ 14
  · have hf := (or_facts_oc ⟨num.toNat, by omega⟩).1
    simp only [u8_ofNat_toNat] at hf
    simp [h14, h, hf]
  · have hf := (or_facts_oc ⟨15, by omega⟩).1
    simp only [h14, h, if_false, write_write]
    congr 2
    simp

theorem tagNum_close (e : Enc) (num : UInt8) :
    e.closingTag num = e.write (Spec.closeTag num.toNat) := by
  unfold closingTag tagNum Spec.closeTag Spec.numNibble Spec.numExt
  have h14 : num ≤ 14 ↔ num.toNat ≤ 14 := u8_le_iff num 14 (by norm_num)
  by_cases h : num.toNat ≤ 14
  · have hf := (or_facts_oc ⟨num.toNat, by omega⟩).2
    simp only [u8_ofNat_toNat] at hf
    simp [h14, h, hf]
  · simp only [h14, h, if_false, write_write]
    congr 2
    simp

/-- The encoder writes exactly the header prescribed by the standard. -/
theorem tag_eq (e : Enc) (id : UInt8) (ctx : Bool) (v : UInt32) :
    e.tag { id := id, context := ctx, value := v }
      = e.write (Spec.tagHeader id.toNat ctx v.toNat) := by
  have h14 : id ≤ 14 ↔ id.toNat ≤ 14 := u8_le_iff id 14 (by norm_num)
  have h4 : v ≤ 4 ↔ v.toNat ≤ 4 := u32_le_iff v 4 (by norm_num)
  have h4' : v > 4 ↔ ¬ v.toNat ≤ 4 := by rw [← h4]; exact UInt32.not_le.symm
  have h253 : v ≤ 253 ↔ v.toNat ≤ 253 := u32_le_iff v 253 (by norm_num)
  have h65535 : v ≤ 65535 ↔ v.toNat ≤ 65535 := u32_le_iff v 65535 (by norm_num)
  -- the initial octet
  have hlow : (if v ≤ 4 then (if ctx then setContextSpecific 0 else 0) ||| v.toUInt8
      else (if ctx then setContextSpecific 0 else 0) ||| 5)
      = (if ctx then setContextSpecific 0 else 0) ||| UInt8.ofNat (Spec.lenBits v.toNat) := by
    unfold Spec.lenBits
    by_cases h : v.toNat ≤ 4 <;> simp [h4, h]
  have hhead : ∀ e : Enc, (if id ≤ 14 then
        e.write [((if ctx then setContextSpecific 0 else 0) ||| UInt8.ofNat (Spec.lenBits v.toNat))
          ||| (id <<< 4)]
      else (e.write [((if ctx then setContextSpecific 0 else 0)
          ||| UInt8.ofNat (Spec.lenBits v.toNat)) ||| 0xF0]).write [id])
      = e.write ([tagByte (Spec.numNibble id.toNat) ctx (Spec.lenBits v.toNat)]
          ++ Spec.numExt id.toNat) := by
    intro e
    unfold Spec.numNibble Spec.numExt
    by_cases h : id.toNat ≤ 14
    · have hf := (or_facts ⟨id.toNat, by omega⟩ ctx ⟨_, Spec_lenBits_lt v.toNat⟩).1
      simp only [u8_ofNat_toNat] at hf
      simp only [h14, h, if_true, hf, List.append_nil]
    · have hf := (or_facts ⟨15, by omega⟩ ctx ⟨_, Spec_lenBits_lt v.toNat⟩).2 rfl
      simp only [h14, h, if_false, hf, write_write, u8_ofNat_toNat]
  have htail : ∀ e : Enc, (if v > 4 then
      if v ≤ 253 then e.write [v.toUInt8]
      else if v ≤ 65535 then (e.write [254]).write (be16 v.toUInt16)
      else (e.write [255]).write (be32 v)
    else e) = e.write (Spec.lenExt v.toNat) := by
    intro e
    unfold Spec.lenExt
    by_cases h : v.toNat ≤ 4
    · simp [h4', h]
    · by_cases h2 : v.toNat ≤ 253
      · simp [h4', h, h253, h2]
      · by_cases h3 : v.toNat ≤ 65535
        · have : v.toUInt16.toNat = v.toNat := by simp; omega
          simp [h4', h, h253, h2, h65535, h3, be16_spec]
          rw [Nat.mod_eq_of_lt (by omega)]
        · simp [h4', h, h253, h2, h65535, h3, be32_spec]
  unfold tag
  simp only [Bool.false_eq_true, if_false, hlow]
  rw [hhead, htail, write_write]
  simp only [Spec.tagHeader, tagByte]

end Enc

/-! ## Decoder -/

namespace Dec

theorem parses_tagNumber_of (meta_ : UInt8) (num : UInt8)
    (hext : isExtendedTagNumber meta_ = decide (¬ num.toNat ≤ 14))
    (hsh : num.toNat ≤ 14 → meta_ >>> 4 = num) :
    Parses tagNumber ([meta_] ++ Spec.numExt num.toNat) (num, meta_) := by
  unfold tagNumber Spec.numExt
  by_cases h : num.toNat ≤ 14
  · simp only [h, if_true, List.append_nil]
    apply Parses.bind' (parses_u8 meta_)
    simp only [hext, h, not_true_eq_false, decide_false, Bool.false_eq_true, if_false, hsh h]
    exact Parses.pure _
  · simp only [h, if_false, u8_ofNat_toNat]
    apply Parses.bind (parses_u8 meta_)
    simp only [hext, h, not_false_eq_true, decide_true, if_true]
    exact Parses.bind' (parses_u8 num) (Parses.pure _)

theorem parses_tagNumber_header (num : UInt8) (ctx : Bool) (low : Nat) (hl : low < 6) :
    Parses tagNumber ([tagByte (Spec.numNibble num.toNat) ctx low] ++ Spec.numExt num.toNat)
      (num, tagByte (Spec.numNibble num.toNat) ctx low) := by
  obtain ⟨h1, _, _, _, _, _, h7⟩ :=
    tagByte_facts ⟨_, Spec_numNibble_lt num.toNat⟩ ctx ⟨low, hl⟩
  apply parses_tagNumber_of
  · rw [h1]; unfold Spec.numNibble; congr 1; split <;> simp <;> omega
  · intro h
    simp only at h7
    rw [h7]; unfold Spec.numNibble; simp [h]

theorem parses_tagNumber_open (num : UInt8) :
    Parses tagNumber (Spec.openTag num.toNat)
      (num, UInt8.ofNat (Spec.numNibble num.toNat * 16 + 14)) := by
  obtain ⟨h1, _, _, _, _, h6⟩ := open_facts ⟨_, Spec_numNibble_lt num.toNat⟩
  apply parses_tagNumber_of
  · rw [h1]; unfold Spec.numNibble; congr 1; split <;> simp <;> omega
  · intro h
    simp only at h6
    rw [h6]; unfold Spec.numNibble; simp [h]

theorem parses_tagNumber_close (num : UInt8) :
    Parses tagNumber (Spec.closeTag num.toNat)
      (num, UInt8.ofNat (Spec.numNibble num.toNat * 16 + 15)) := by
  obtain ⟨h1, _, _, _, _, h6⟩ := close_facts ⟨_, Spec_numNibble_lt num.toNat⟩
  apply parses_tagNumber_of
  · rw [h1]; unfold Spec.numNibble; congr 1; split <;> simp <;> omega
  · intro h
    simp only at h6
    rw [h6]; unfold Spec.numNibble; simp [h]

theorem parses_value (nib : Nat) (hn : nib < 16) (ctx : Bool) (v : UInt32) :
    Parses (value (tagByte nib ctx (Spec.lenBits v.toNat))) (Spec.lenExt v.toNat) v := by
  obtain ⟨_, h2, h3, h4, _, h6, _⟩ :=
    tagByte_facts ⟨nib, hn⟩ ctx ⟨_, Spec_lenBits_lt v.toNat⟩
  have hv := v.toNat_lt
  unfold value
  simp only at h2 h3 h4 h6
  simp only [h2, h3, h4, h6]
  unfold Spec.lenBits Spec.lenExt
  by_cases h : v.toNat ≤ 4
  · have : v.toNat ≠ 5 := by omega
    simp only [h, if_true, this, decide_false, Bool.false_eq_true, if_false, Bool.or_self]
    have : (UInt8.ofNat v.toNat).toUInt32 = v := by
      apply UInt32.toNat_inj.mp; simp; omega
    rw [this]
    exact Parses.pure _
  · simp only [h, if_false, decide_true, if_true]
    by_cases h2 : v.toNat ≤ 253
    · simp only [h2, if_true]
      refine Parses.bind' (parses_u8 _) ?_
      have e1 : UInt8.ofNat v.toNat ≠ 255 := by
        intro hc; have := congrArg UInt8.toNat hc; simp at this; omega
      have e2 : UInt8.ofNat v.toNat ≠ 254 := by
        intro hc; have := congrArg UInt8.toNat hc; simp at this; omega
      simp only [e1, e2, if_false]
      have : (UInt8.ofNat v.toNat).toUInt32 = v := by
        apply UInt32.toNat_inj.mp; simp; omega
      rw [this]
      exact Parses.pure _
    · simp only [h2, if_false]
      by_cases h3 : v.toNat ≤ 65535
      · simp only [h3, if_true]
        have hb : (254 : UInt8) :: Spec.bigEndian 2 v.toNat = [254] ++ be16 v.toUInt16 := by
          rw [be16_spec]; simp; rw [Nat.mod_eq_of_lt (by omega)]
        rw [hb]
        refine Parses.bind (parses_u8 _) ?_
        simp only [show ¬ ((254 : UInt8) = 255) by decide, if_false, if_true]
        refine Parses.bind' (parses_be16 _) ?_
        have : (v.toUInt16).toUInt32 = v := by
          apply UInt32.toNat_inj.mp; simp; omega
        rw [this]
        exact Parses.pure _
      · simp only [h3, if_false]
        have hb : (255 : UInt8) :: Spec.bigEndian 4 v.toNat = [255] ++ be32 v := by
          rw [be32_spec]; rfl
        rw [hb]
        refine Parses.bind (parses_u8 _) ?_
        simp only [if_true]
        exact parses_be32 v

/-- Reading a header of the standard form. -/
theorem parses_tagHeader (num : UInt8) (ctx : Bool) (v : UInt32) :
    Parses tagNumberAndValue (Spec.tagHeader num.toNat ctx v.toNat)
      (num, tagByte (Spec.numNibble num.toNat) ctx (Spec.lenBits v.toNat), v) := by
  unfold tagNumberAndValue
  have h1 := parses_tagNumber_header num ctx (Spec.lenBits v.toNat) (Spec_lenBits_lt _)
  have h2 := parses_value (Spec.numNibble num.toNat) (Spec_numNibble_lt _) ctx v
  exact Parses.bind h1 (Parses.bind' h2 (Parses.pure _))

theorem parses_value_open (num : UInt8) :
    Parses (value (UInt8.ofNat (Spec.numNibble num.toNat * 16 + 14))) [] 0 := by
  obtain ⟨_, h2, h3, _, _, _⟩ := open_facts ⟨_, Spec_numNibble_lt num.toNat⟩
  simp only at h2 h3
  unfold value
  simp only [h2, h3, Bool.false_eq_true, if_false, Bool.true_or, if_true]
  exact Parses.pure _

theorem parses_value_close (num : UInt8) :
    Parses (value (UInt8.ofNat (Spec.numNibble num.toNat * 16 + 15))) [] 0 := by
  obtain ⟨_, h2, h3, _, _, _⟩ := close_facts ⟨_, Spec_numNibble_lt num.toNat⟩
  simp only at h2 h3
  unfold value
  simp only [h2, h3, Bool.false_eq_true, if_false, Bool.true_or, if_true]
  exact Parses.pure _

theorem parses_openTag (num : UInt8) :
    Parses tagNumberAndValue (Spec.openTag num.toNat)
      (num, UInt8.ofNat (Spec.numNibble num.toNat * 16 + 14), 0) :=
  Parses.bind' (parses_tagNumber_open num)
    (Parses.bind' (parses_value_open num) (Parses.pure _))

theorem parses_closeTag (num : UInt8) :
    Parses tagNumberAndValue (Spec.closeTag num.toNat)
      (num, UInt8.ofNat (Spec.numNibble num.toNat * 16 + 15), 0) :=
  Parses.bind' (parses_tagNumber_close num)
    (Parses.bind' (parses_value_close num) (Parses.pure _))

end Dec

end Bac
