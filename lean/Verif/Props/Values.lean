import Verif.Lemmas.Bits
import Verif.Lemmas.AppData
/-!
# C12-C15: bit strings, dates and times, segmentation octet
-/

namespace Bac.Props
open Bac

/-! ## C12 Bit strings -/

theorem bitsOf_eq (data : List UInt8) :
    Spec.bitsOf data = (List.range (8 * data.length)).map fun i =>
      ((data[i / 8]?).map fun b => b.toNat.testBit (7 - i % 8)).getD false := by
  induction data with
  | nil => rfl
  | cons b r ih =>
    have h8 : 8 * (b :: r).length = 8 + 8 * r.length := by simp; omega
    rw [h8, List.range_add, List.map_append]
    show Spec.octetBits b ++ Spec.bitsOf r = _
    rw [ih]
    congr 1
    rw [List.map_map]
    apply List.map_congr_left
    intro i _
    show _ = (((b :: r)[(8 + i) / 8]?).map fun b => b.toNat.testBit (7 - (8 + i) % 8)).getD false
    rw [show (8 + i) / 8 = i / 8 + 1 by omega, show (8 + i) % 8 = i % 8 by omega,
      List.getElem?_cons_succ]

theorem bitStringOf_short (u : UInt8) (data : List UInt8) (h15 : data.length ≤ 15) :
    Dec.bitStringOf (data.length + 1) (u :: data)
      = .ok ⟨UInt8.ofNat data.length * 8 - (u &&& 7), data.map byteReverseBits⟩ := by
  have hn : (UInt8.ofNat data.length).toNat = data.length := by simp; omega
  have hle : UInt8.ofNat data.length ≤ 15 := by
    rw [UInt8.le_iff_toNat_le, hn]; exact h15
  unfold Dec.bitStringOf
  simp only [Nat.add_sub_cancel, hle, if_true, hn]
  obtain ⟨bs', h1, h2, h3, h4⟩ := Dec.bitStringLoop_value (u :: data) data.length 0
    (BitString.new data.length) (by simp) (by simp [BitString.new, BitString.maxBytes, h15]) (by omega)
  rw [h1, Outcome.ok_bind]
  have hv : bs'.value = data.map byteReverseBits := by
    apply List.ext_getElem?
    intro j
    rw [h4 j]
    by_cases hj : j < data.length
    · rw [if_pos (by omega)]; simp
    · rw [if_neg (by omega)]
      rw [List.getElem?_eq_none, List.getElem?_eq_none]
      · simp; omega
      · simp [BitString.new, BitString.maxBytes]; omega
  simp only [BitString.setBitsUsed, hv]

theorem used_toNat : ∀ (k : Fin 16) (u : Fin 8), (k.val = 0 → u.val = 0) →
    (UInt8.ofNat k.val * 8 - (UInt8.ofNat u.val &&& 7)).toNat = 8 * k.val - u.val := by
  decide +kernel

/-- C12 for up to fifteen octets and (if there is no octet) no unused bits: the
decoder consumes the contents, the number of bits is `8k - u`, and the bits are
the transmitted ones in order.  Missing: more than 15 octets, and an unused
count with no octet (see `C12_fails_*`). -/
theorem C12_bitstring_partial (u : UInt8) (data : List UInt8) (hu : u.toNat < 8)
    (hk : data.length ≤ 15) (h0 : data = [] → u = 0) :
    ∃ bs, Parses (Dec.appDataOfTag 8 (data.length + 1)) (u :: data) (.bits (some bs), none) ∧
      bs.bitUsed.toNat = 8 * data.length - u.toNat ∧
      bs.getValue = .ok ((Spec.bitsOf data).take (8 * data.length - u.toNat)) := by
  have hcount := used_toNat ⟨data.length, by omega⟩ ⟨u.toNat, hu⟩ (by
    intro h
    simp only at h
    have := h0 (List.length_eq_zero_iff.mp h)
    subst this; rfl)
  simp only [UInt8.ofNat_toNat] at hcount
  refine ⟨⟨UInt8.ofNat data.length * 8 - (u &&& 7), data.map byteReverseBits⟩, ?_, hcount, ?_⟩
  · refine Dec.Parses.withError (f := Scalar.bits) (m := Dec.bitString (data.length + 1)) ?_
    unfold Dec.bitString
    rw [if_neg (by omega)]
    have hb := Dec.parses_bytes (u :: data)
    rw [List.length_cons] at hb
    refine Parses.bind' hb ?_
    rw [bitStringOf_short u data hk]
    intro p rest
    rfl
  · unfold BitString.getValue
    simp only [hcount]
    rw [BitString.getValueFrom_ok _
      (fun i => ((data[i / 8]?).map fun b => b.toNat.testBit (7 - i % 8)).getD false) _ _ (by omega)]
    · rw [bitsOf_eq, ← List.map_take, List.take_range, Nat.min_eq_left (by omega)]
      simp only [Nat.zero_add]
    · intro j hj hlt
      have hn : (UInt8.ofNat j).toNat = j := by simp; omega
      rw [BitString.bit_eq, hn, if_pos hj]
      have hlt' : j / 8 < data.length := by omega
      have hr := reverse_bit data[j / 8] ⟨j % 8, by omega⟩
      simp only at hr
      simp only [List.getElem?_map, List.getElem?_eq_getElem hlt', Option.map_some,
        Option.getD_some, hr]

/-- C12 fails: more than fifteen octets decode to an empty bit string, for every content. -/
theorem C12_fails_long (u : UInt8) (data : List UInt8) (h : 16 ≤ data.length)
    (h' : data.length ≤ 255) :
    ∃ bs, Parses (Dec.appDataOfTag 8 (data.length + 1)) (u :: data) (.bits (some bs), none) ∧
      bs.getValue = .ok [] := by
  refine ⟨BitString.new data.length, ?_, rfl⟩
  refine Dec.Parses.withError (f := Scalar.bits) (m := Dec.bitString (data.length + 1)) ?_
  unfold Dec.bitString
  rw [if_neg (by omega)]
  have hb := Dec.parses_bytes (u :: data)
  rw [List.length_cons] at hb
  refine Parses.bind' hb ?_
  have hn : (UInt8.ofNat data.length).toNat = data.length := by simp; omega
  have : Dec.bitStringOf (data.length + 1) (u :: data) = .ok (BitString.new data.length) := by
    unfold Dec.bitStringOf
    have : ¬ UInt8.ofNat data.length ≤ 15 := by
      rw [UInt8.le_iff_toNat_le, hn]; intro hc; have : data.length ≤ 15 := hc; omega
    simp [this]
  rw [this]
  intro p rest
  rfl

/-- C12 fails: a bit string of no octets announcing unused bits decodes without
error, and reading it crashes.  (`81 03` on the wire.) -/
theorem C12_fails_crash : ∃ bs d,
    Dec.appData (Dec.new [0x81, 0x03]) = .ok ((.bits (some bs), none), d) ∧ bs.getValue.Panics :=
  ⟨⟨253, []⟩, ⟨[], some 3, none⟩, by decide +kernel, by decide +kernel⟩

/-- A status-flags value: four bits, 0101. -/
example : Dec.appData (Dec.new [0x82, 0x04, 0x50])
      = .ok ((.bits (some ⟨4, [0x0A]⟩), none), ⟨[], some 0x50, none⟩) ∧
    BitString.getValue ⟨4, [0x0A]⟩ = .ok [false, true, false, true] ∧
    (Spec.bitsOf [0x50]).take 4 = [false, true, false, true] := by decide +kernel

/-! ## C13 Bit string set/get laws -/

/-- C13 within the allocated octets and the first 120 bits: reading back gives the value, every other
position reads as before (whatever it gives), and the used count is the maximum.
Missing: other positions (`C13_fails`); see `C13_exact`. -/
theorem C13_set_get_partial (bs : BitString) (i : UInt8) (v : Bool)
    (hi : i.toNat / 8 < bs.value.length) (h120 : i.toNat < 120) :
    ∃ bs', bs.setBit i v = .ok bs' ∧ bs'.bit i = .ok v ∧
      (∀ j, j ≠ i → bs'.bit j = bs.bit j) ∧
      bs'.bitUsed.toNat = max bs.bitUsed.toNat (i.toNat + 1) ∧
      bs'.value.length = bs.value.length := by
  have hs : bs.setBit i v = .ok ⟨if bs.bitUsed < i + 1 then i + 1 else bs.bitUsed,
      bs.value.set (i.toNat / 8) (if v then bs.value[i.toNat / 8] ||| (1 <<< UInt8.ofNat (i.toNat % 8))
        else bs.value[i.toNat / 8] &&& ~~~(1 <<< UInt8.ofNat (i.toNat % 8)))⟩ := by
    unfold BitString.setBit
    have : i / 8 < 15 := (bit_index_lt i).mpr h120
    simp only [this, if_true, bit_index, bit_offset, List.getElem?_eq_getElem hi]
  refine ⟨_, hs, ?_, ?_, ?_, ?_⟩
  · rw [BitString.bit_eq, if_pos h120]
    simp only [List.getElem?_set_self hi]
    cases v
    · have := and_mask_bit bs.value[i.toNat / 8] ⟨i.toNat % 8, by omega⟩ ⟨i.toNat % 8, by omega⟩
      simp only [if_true] at this
      simp only [Bool.false_eq_true, if_false, this]
    · have := or_mask_bit bs.value[i.toNat / 8] ⟨i.toNat % 8, by omega⟩ ⟨i.toNat % 8, by omega⟩
      simp only [if_true] at this
      simp only [if_true, this]
  · intro j hj
    rw [BitString.bit_eq, BitString.bit_eq]
    by_cases hj120 : j.toNat < 120
    · rw [if_pos hj120, if_pos hj120]
      by_cases hb : j.toNat / 8 = i.toNat / 8
      · have hne : (⟨i.toNat % 8, by omega⟩ : Fin 8) ≠ ⟨j.toNat % 8, by omega⟩ := by
          intro h
          apply hj
          apply UInt8.toNat_inj.mp
          simp only [Fin.mk.injEq] at h
          omega
        simp only [hb, List.getElem?_set_self hi, List.getElem?_eq_getElem hi]
        cases v
        · have := and_mask_bit bs.value[i.toNat / 8] ⟨i.toNat % 8, by omega⟩ ⟨j.toNat % 8, by omega⟩
          rw [if_neg hne] at this
          simp only [Bool.false_eq_true, if_false, this]
        · have := or_mask_bit bs.value[i.toNat / 8] ⟨i.toNat % 8, by omega⟩ ⟨j.toNat % 8, by omega⟩
          rw [if_neg hne] at this
          simp only [if_true, this]
      · simp only [List.getElem?_set_ne (Ne.symm hb)]
    · rw [if_neg hj120, if_neg hj120]
  · have h1 : (i + 1).toNat = i.toNat + 1 := by
      rw [UInt8.toNat_add]; show (i.toNat + 1) % 256 = _; omega
    simp only
    split_ifs with h
    · rw [UInt8.lt_iff_toNat_lt, h1] at h; omega
    · rw [UInt8.lt_iff_toNat_lt, h1] at h; omega
  · simp

/-- C13 fails beyond the allocated octets: setting a bit crashes, and from bit
120 on it is silently lost. -/
theorem C13_fails :
    (BitString.setBit (BitString.new 1) 8 true).Panics ∧
    (∃ bs', BitString.setBit (BitString.new 20) 120 true = .ok bs' ∧ bs'.bit 120 = .ok false) := by
  refine ⟨by decide +kernel, BitString.new 20, by decide +kernel, by decide +kernel⟩

example : BitString.setBit (BitString.new 2) 9 true = .ok ⟨10, [0, 2]⟩ ∧
    BitString.bit ⟨10, [0, 2]⟩ 9 = .ok true ∧ BitString.bit ⟨10, [0, 2]⟩ 8 = .ok false := by
  decide +kernel

/-! ## C14 Dates and times -/

theorem parses_rawRead (a b c d : UInt8) : Parses (Dec.rawRead 4) [a, b, c, d] [a, b, c, d] := by
  intro p rest
  simp [Dec.rawRead, lastOr]

theorem u8_of_toNat (a : UInt8) : Enc.intToU8 (a.toNat : Int) = a := by
  have h := a.toNat_lt
  apply UInt8.toNat_inj.mp
  simp [Enc.intToU8, UInt8.ofInt]
  omega

/-- C14 fails: the year of a received date is never the transmitted one, and
"unspecified" (255) becomes 2245. -/
theorem C14_fails_year (y m d w : UInt8) : ∃ dt : Date,
    Parses Dec.appData [0xA4, y, m, d, w] (.date dt, none) ∧ dt.year ≠ 1900 + y.toNat ∧
    (y = 255 → dt.year ≠ 255) := by
  refine ⟨⟨y.toNat + 1990, m.toNat, d.toNat, w.toNat⟩, ?_, by simp; omega, fun h => by
    subst h; show ((255 : Nat) : Int) + 1990 ≠ 255; decide⟩
  refine Dec.parses_appData_of (num := 10) (v := 4) (content := [y, m, d, w]) ?_
  refine Dec.Parses.withError (f := Scalar.date) (m := Dec.date {} 4) ?_
  unfold Dec.date
  rw [if_neg (by decide)]
  refine Parses.bind' (parses_rawRead y m d w) ?_
  exact Parses.bind0 Dec.parses_error (Parses.pure _)

/-- C14 for dates, what does hold: month, day and weekday are as transmitted, the
year is 1990 plus the octet, and encoding the decoded date gives the octets back. -/
theorem C14_date_partial (y m d w : UInt8) : ∃ dt : Date,
    Parses Dec.appData [0xA4, y, m, d, w] (.date dt, none) ∧
    dt.year = 1990 + y.toNat ∧ dt.month = m.toNat ∧ dt.day = d.toNat ∧ dt.dow = w.toNat ∧
    Enc.new.date dt = ⟨[y, m, d, w], none⟩ := by
  refine ⟨⟨y.toNat + 1990, m.toNat, d.toNat, w.toNat⟩, ?_, by simp; omega, rfl, rfl, rfl, ?_⟩
  · refine Dec.parses_appData_of (num := 10) (v := 4) (content := [y, m, d, w]) ?_
    refine Dec.Parses.withError (f := Scalar.date) (m := Dec.date {} 4) ?_
    unfold Dec.date
    rw [if_neg (by decide)]
    refine Parses.bind' (parses_rawRead y m d w) ?_
    exact Parses.bind0 Dec.parses_error (Parses.pure _)
  · unfold Enc.date
    rw [if_pos (show ((y.toNat : Int) + 1990 ≠ 0xFF) by omega)]
    simp only [u8_of_toNat, show (y.toNat : Int) + 1990 - 1990 = y.toNat by omega]
    rfl

/-- C14 for times, in full. -/
theorem C14_time (h m s c : UInt8) : ∃ t : Time,
    Parses Dec.appData [0xB4, h, m, s, c] (.time t, none) ∧
    t.hour = h.toNat ∧ t.minute = m.toNat ∧ t.second = s.toNat ∧
    t.millisecond = 10 * c.toNat ∧ Enc.new.time t = ⟨[h, m, s, c], none⟩ := by
  refine ⟨⟨h.toNat, m.toNat, s.toNat, c.toNat * 10⟩, ?_, rfl, rfl, rfl, by simp; omega, ?_⟩
  · refine Dec.parses_appData_of (num := 11) (v := 4) (content := [h, m, s, c]) ?_
    refine Dec.Parses.withError (f := Scalar.time) (m := Dec.time {} 4) ?_
    unfold Dec.time
    rw [if_neg (by decide)]
    refine Parses.bind' (parses_rawRead h m s c) ?_
    exact Parses.bind0 Dec.parses_error (Parses.pure _)
  · unfold Enc.time
    simp only [u8_of_toNat, Int.mul_tdiv_cancel _ (show (10 : Int) ≠ 0 by decide)]
    rfl

example : Dec.appData (Dec.new [0xB4, 13, 45, 30, 50])
    = .ok ((.time ⟨13, 45, 30, 500⟩, none), ⟨[], some 50, none⟩) := by decide +kernel

/-! ## C15 Max-segments / max-APDU octet -/

/-- The six standard APDU sizes (clause 20.1.2.5). -/
def standardApdu : List Nat := [50, 128, 206, 480, 1024, 1476]

/-- C15 fails: above 1476 the smallest size is advertised, and a request for no
segments is advertised as one. -/
theorem C15_fails (segs apdu : Nat) (h : 1476 < apdu) :
    decodeMaxApdu (encodeMaxSegsMaxApdu segs apdu) = 50 ∧
    decodeMaxSegs (encodeMaxSegsMaxApdu 0 apdu) = 1 := by
  unfold encodeMaxSegsMaxApdu
  simp only [show ¬ apdu ≤ 50 by omega, show ¬ apdu ≤ 128 by omega, show ¬ apdu ≤ 206 by omega,
    show ¬ apdu ≤ 480 by omega, show ¬ apdu ≤ 1024 by omega, show ¬ apdu ≤ 1476 by omega, if_false]
  constructor
  · simp only [maxSegsLoop]
    split_ifs <;> decide
  · decide

theorem octet_facts : ∀ (s : Fin 8) (a : Fin 6),
    decodeMaxSegs (UInt8.ofNat (s.val <<< 4) ||| UInt8.ofNat a.val)
      = (if s.val = 7 then 65 else 2 ^ s.val) ∧
    decodeMaxApdu (UInt8.ofNat (s.val <<< 4) ||| UInt8.ofNat a.val)
      = standardApdu[a.val]'(by simp [standardApdu]) := by
  decide +kernel

/-- The number of segments advertised for a request (clause 20.1.2.4; 65 means
"more than 64"). -/
theorem segs_code (segs : Nat) (h : 1 ≤ segs) : ∃ s : Fin 8,
    (if segs = 64 then 0x60 else if segs > 64 then 0x70 else maxSegsLoop segs 6 0)
      = UInt8.ofNat (s.val <<< 4) ∧
    (if s.val = 7 then 65 else 2 ^ s.val) ≤ segs ∧
    (segs ≤ 64 → s.val ≠ 7 ∧ segs < 2 * 2 ^ s.val) ∧ (64 < segs → s.val = 7) := by
  by_cases h64 : segs = 64
  · subst h64; exact ⟨6, by decide, by decide, by decide, by decide⟩
  by_cases hgt : segs > 64
  · rw [if_neg h64, if_pos hgt]; exact ⟨7, by decide, hgt, by omega, fun _ => rfl⟩
  rw [if_neg h64, if_neg hgt]
  simp only [maxSegsLoop, Nat.shiftLeft_eq, one_mul, Nat.reduceAdd, Nat.reducePow]
  split_ifs
  · exact ⟨0, by decide, by show 1 ≤ segs; omega, fun _ => ⟨by decide, by show segs < 2 * 1; omega⟩, by omega⟩
  · exact ⟨1, by decide, by show 2 ≤ segs; omega, fun _ => ⟨by decide, by show segs < 2 * 2; omega⟩, by omega⟩
  · exact ⟨2, by decide, by show 4 ≤ segs; omega, fun _ => ⟨by decide, by show segs < 2 * 4; omega⟩, by omega⟩
  · exact ⟨3, by decide, by show 8 ≤ segs; omega, fun _ => ⟨by decide, by show segs < 2 * 8; omega⟩, by omega⟩
  · exact ⟨4, by decide, by show 16 ≤ segs; omega, fun _ => ⟨by decide, by show segs < 2 * 16; omega⟩, by omega⟩
  · exact ⟨5, by decide, by show 32 ≤ segs; omega, fun _ => ⟨by decide, by show segs < 2 * 32; omega⟩, by omega⟩
  · omega

/-- C15 for at least one segment and at most 1476 octets: the advertised size is
the least standard size covering the request, the advertised segment count is at
most the request, more than half of it, and 65 ("more than 64") exactly above 64. -/
theorem C15_octet_partial (segs apdu : Nat) (hs : 1 ≤ segs) (ha : apdu ≤ 1476) :
    let o := encodeMaxSegsMaxApdu segs apdu
    decodeMaxApdu o ∈ standardApdu ∧ apdu ≤ decodeMaxApdu o ∧
    (∀ x ∈ standardApdu, apdu ≤ x → decodeMaxApdu o ≤ x) ∧
    decodeMaxSegs o ≤ segs ∧ (segs ≤ 64 → segs < 2 * decodeMaxSegs o) ∧
    (64 < segs → decodeMaxSegs o = 65) := by
  obtain ⟨s, h1, h2, h3, h4⟩ := segs_code segs hs
  have key : ∀ a : Fin 6, encodeMaxSegsMaxApdu segs apdu
        = UInt8.ofNat (s.val <<< 4) ||| UInt8.ofNat a.val →
      apdu ≤ standardApdu[a.val]'(by simp [standardApdu]) →
      (∀ x ∈ standardApdu, apdu ≤ x →
        standardApdu[a.val]'(by simp [standardApdu]) ≤ x) →
      (let o := encodeMaxSegsMaxApdu segs apdu
      decodeMaxApdu o ∈ standardApdu ∧ apdu ≤ decodeMaxApdu o ∧
      (∀ x ∈ standardApdu, apdu ≤ x → decodeMaxApdu o ≤ x) ∧
      decodeMaxSegs o ≤ segs ∧ (segs ≤ 64 → segs < 2 * decodeMaxSegs o) ∧
      (64 < segs → decodeMaxSegs o = 65)) := by
    intro a he hle hmin
    obtain ⟨f1, f2⟩ := octet_facts s a
    intro o
    simp only [o]
    rw [he, f1, f2]
    refine ⟨List.getElem_mem _, hle, hmin, h2, fun h => ?_, fun h => ?_⟩
    · obtain ⟨g1, g2⟩ := h3 h
      rw [if_neg g1]; exact g2
    · rw [if_pos (h4 h)]
  have hcase : apdu ≤ 50 ∨ (50 < apdu ∧ apdu ≤ 128) ∨ (128 < apdu ∧ apdu ≤ 206) ∨
      (206 < apdu ∧ apdu ≤ 480) ∨ (480 < apdu ∧ apdu ≤ 1024) ∨ 1024 < apdu := by omega
  have e : encodeMaxSegsMaxApdu segs apdu =
      if apdu ≤ 50 then UInt8.ofNat (s.val <<< 4) ||| 0x00
      else if apdu ≤ 128 then UInt8.ofNat (s.val <<< 4) ||| 0x01
      else if apdu ≤ 206 then UInt8.ofNat (s.val <<< 4) ||| 0x02
      else if apdu ≤ 480 then UInt8.ofNat (s.val <<< 4) ||| 0x03
      else if apdu ≤ 1024 then UInt8.ofNat (s.val <<< 4) ||| 0x04
      else if apdu ≤ 1476 then UInt8.ofNat (s.val <<< 4) ||| 0x05
      else UInt8.ofNat (s.val <<< 4) := by
    unfold encodeMaxSegsMaxApdu
    simp only [h1]
  have hmem : ∀ x ∈ standardApdu, x = 50 ∨ x = 128 ∨ x = 206 ∨ x = 480 ∨ x = 1024 ∨ x = 1476 := by
    simp [standardApdu]
  rcases hcase with h | ⟨g, h⟩ | ⟨g, h⟩ | ⟨g, h⟩ | ⟨g, h⟩ | g
  · refine key 0 ?_ h ?_
    · rw [e, if_pos h]; rfl
    · intro x hx hle; have := hmem x hx; show 50 ≤ x; omega
  · refine key 1 ?_ h ?_
    · rw [e, if_neg (by omega), if_pos h]; rfl
    · intro x hx hle; have := hmem x hx; show 128 ≤ x; omega
  · refine key 2 ?_ h ?_
    · rw [e, if_neg (by omega), if_neg (by omega), if_pos h]; rfl
    · intro x hx hle; have := hmem x hx; show 206 ≤ x; omega
  · refine key 3 ?_ h ?_
    · rw [e, if_neg (by omega), if_neg (by omega), if_neg (by omega), if_pos h]; rfl
    · intro x hx hle; have := hmem x hx; show 480 ≤ x; omega
  · refine key 4 ?_ h ?_
    · rw [e, if_neg (by omega), if_neg (by omega), if_neg (by omega), if_neg (by omega), if_pos h]
      rfl
    · intro x hx hle; have := hmem x hx; show 1024 ≤ x; omega
  · refine key 5 ?_ ha ?_
    · rw [e, if_neg (by omega), if_neg (by omega), if_neg (by omega), if_neg (by omega),
        if_neg (by omega), if_pos ha]
      rfl
    · intro x hx hle; have := hmem x hx; show 1476 ≤ x; omega

/-- C15: the standard sizes and the powers of two up to 64 survive exactly. -/
theorem C15_exact_survive (k : Nat) (hk : k ≤ 6) (apdu : Nat) (ha : apdu ∈ standardApdu) :
    decodeMaxSegs (encodeMaxSegsMaxApdu (2 ^ k) apdu) = 2 ^ k ∧
    decodeMaxApdu (encodeMaxSegsMaxApdu (2 ^ k) apdu) = apdu := by
  have : ∀ k : Fin 7, ∀ a ∈ standardApdu,
      decodeMaxSegs (encodeMaxSegsMaxApdu (2 ^ k.val) a) = 2 ^ k.val ∧
      decodeMaxApdu (encodeMaxSegsMaxApdu (2 ^ k.val) a) = a := by decide +kernel
  exact this ⟨k, by omega⟩ apdu ha

example : encodeMaxSegsMaxApdu 5 1000 = 0x24 ∧ decodeMaxSegs 0x24 = 4 ∧ decodeMaxApdu 0x24 = 1024 := by
  decide +kernel

end Bac.Props
