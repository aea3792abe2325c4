import Verif.Props.EndToEnd

/-!
# Where exactly C05, C06, C13, C15, C16, C22, C29, C32 and C45 hold

The files of these claims show that they fail somewhere and hold elsewhere.  Here the
two sides meet: each theorem is an equivalence over all inputs.
-/

namespace Bac.Props

open Spec (AppVal Means NetAddr NetHeader)


/-! ## C05 -/

/-- The values that survive. -/
def C05_Back : Scalar → Prop
  | .null | .bool _ | .uint _ | .real _ | .double _ | .str _ => True
  | .int v => ¬ (128 ≤ v.toInt ∧ v.toInt ≤ 255) ∧ ¬ (32768 ≤ v.toInt ∧ v.toInt ≤ 65535)
  | .objId id => id.typ.toNat < 1024 ∧ id.inst.toNat < 4194304
  | _ => False

/-- C05, exactly: of the values a Go caller can pass (strings below 4 GiB), those come back that are
null, a Boolean, a uint32, a float32, a float64, a string, an int32 outside the gap, or an object
identifier within its fields; no other. -/
theorem C05_exact (s : Scalar) (hstr : ∀ l, s = .str l → l.length + 1 < 2 ^ 32) :
    (∃ bs, Enc.new.appData (.one s) false = .ok (none, ⟨bs, none⟩) ∧ Parses Dec.appData bs (s, none)) ↔
      C05_Back s := by
  have good : C05_Good s → ∃ bs, Enc.new.appData (.one s) false = .ok (none, ⟨bs, none⟩) ∧
      Parses Dec.appData bs (s, none) := C05_roundtrip_partial s
  have refused : ¬ C07_Accepted (.one s) → ¬ ∃ bs, Enc.new.appData (.one s) false = .ok (none, ⟨bs, none⟩) ∧
      Parses Dec.appData bs (s, none) := by
    rintro h ⟨bs, h1, _⟩
    obtain ⟨err, he⟩ := C07_refused Enc.new (.one s) h
    rw [he] at h1
    cases h1
  cases s
  case null => exact ⟨fun _ => trivial, fun _ => good trivial⟩
  case bool b => exact ⟨fun _ => trivial, fun _ => good trivial⟩
  case uint v => exact ⟨fun _ => trivial, fun _ => good trivial⟩
  case real v => exact ⟨fun _ => trivial, fun _ => good trivial⟩
  case double v => exact ⟨fun _ => trivial, fun _ => good trivial⟩
  case str l => exact ⟨fun _ => trivial, fun _ => good (hstr l rfl)⟩
  case int v =>
    rw [C05_int_iff]
    unfold C05_IntGap C05_Back
    tauto
  case enum v =>
    refine ⟨fun ⟨bs, h1, h2⟩ => ?_, fun h => h.elim⟩
    obtain ⟨bs', g1, g2⟩ := C05_enumerated v
    have hb : bs = bs' := by rw [h1] at g1; simpa using g1
    subst hb
    have := (h2 none []).symm.trans (g2 none [])
    cases this
  case objId id =>
    refine ⟨fun ⟨bs, h1, h2⟩ => ?_, fun h => good h⟩
    rw [Enc.appData_objId, Enc.new_write] at h1
    have hb : (AppVal.objId (id.typ.toNat % 2 ^ 10) (id.inst.toNat % 2 ^ 22)).encoding = bs := by
      simpa using h1
    subst hb
    have g2 := Dec.parses_objId (id.typ.toNat % 2 ^ 10) (id.inst.toNat % 2 ^ 22)
      (Nat.mod_lt _ (by norm_num)) (Nat.mod_lt _ (by norm_num))
    have e := (h2 none []).symm.trans (g2 none [])
    simp only [Outcome.ok.injEq, Prod.mk.injEq, Scalar.objId.injEq, and_true] at e
    have e1 := congrArg (fun x => x.typ.toNat) e
    have e2 := congrArg (fun x => x.inst.toNat) e
    simp only [UInt16.toNat_ofNat', UInt32.toNat_ofNat'] at e1 e2
    show id.typ.toNat < 1024 ∧ id.inst.toNat < 4194304
    omega
  all_goals exact ⟨fun h => absurd h (refused (by intro hc; exact hc)), fun h => h.elim⟩

example : C05_Back (.int 127) ∧ ¬ C05_Back (.int 128) ∧ C05_Back (.objId ⟨1023, 4194303⟩) ∧ ¬ C05_Back (.objId ⟨1024, 0⟩) ∧
    ¬ C05_Back (.enum 3) := by
  unfold C05_Back; decide

/-! ## C06 -/

/-- C06, exactly: of the values the encoder accepts, Booleans aside, only the float64 goes out with a
header that announces another length than it has. -/
theorem C06_exact (s : Scalar) (hs : C07_Accepted (.one s)) (hb : ∀ b, s ≠ .bool b)
    (hstr : ∀ l, s = .str l → l.length + 1 < 2 ^ 32) :
    (∃ bs tag content, Enc.new.appData (.one s) false = .ok (none, ⟨bs, none⟩) ∧
      bs = Spec.tagHeader tag false content.length ++ content ∧ tag ≤ 12) ↔ ∀ b, s ≠ .double b := by
  refine ⟨?_, fun h => C06_length_partial s ?_⟩
  · rintro ⟨bs, tag, content, h1, h2, h3⟩ b rfl
    rw [Enc.appData_double, Enc.new_write] at h1
    have e : Spec.tagHeader 5 false 4 ++ Spec.bigEndian 8 b.toNat = bs := by simpa using h1
    rw [h2] at e
    have hl : (Spec.tagHeader tag false content.length).length + content.length = 9 := by
      have := congrArg List.length e
      rw [List.length_append, List.length_append, length_bigEndian] at this
      exact this.symm
    have h0 := congrArg List.head? e
    simp only [Spec.tagHeader, Spec.numNibble, show tag ≤ 14 by omega, if_true, Spec.lenBits,
      List.cons_append, List.head?_cons, Option.some.injEq] at h0
    have h0 := congrArg UInt8.toNat h0
    simp only [Nat.reduceLeDiff, if_true, Bool.false_eq_true, if_false, UInt8.toNat_ofNat'] at h0
    have : content.length = 4 := by
      split_ifs at h0 <;> omega
    rw [this] at hl
    simp [Spec.tagHeader, Spec.numExt, Spec.lenExt, show tag ≤ 14 by omega] at hl
  · cases s <;> first
      | trivial
      | exact (h _ rfl).elim
      | exact (hb _ rfl).elim
      | exact hstr _ rfl

example : (∀ b, Scalar.real 7 ≠ .double b) ∧ C07_Accepted (.one (.real 7)) ∧ C07_Accepted (.one (.double 7)) :=
  ⟨nofun, trivial, trivial⟩

/-! ## C13 -/

/-- C13, exactly: SetBit crashes on the first 120 positions beyond the octets of the bit string. -/
theorem C13_crash_iff (bs : BitString) (i : UInt8) (v : Bool) :
    (bs.setBit i v).Panics ↔ i.toNat < 120 ∧ bs.value.length ≤ i.toNat / 8 := by
  unfold BitString.setBit
  by_cases h : i.toNat < 120
  · have : i / 8 < 15 := (bit_index_lt i).mpr h
    simp only [this, if_true, bit_index, h, true_and]
    cases hg : bs.value[i.toNat / 8]? with
    | none => simpa [Outcome.Panics] using hg
    | some b =>
      have := (List.getElem?_eq_some_iff.1 hg).1
      simp [Outcome.Panics]; omega
  · have : ¬ i / 8 < 15 := fun hc => h ((bit_index_lt i).mp hc)
    simp [this, h, Outcome.Panics]

/-- C13, exactly: the law of setting and reading back - the bit has the value, the others are as before, the
number of bits used is the larger - holds for the positions within the octets and below 120, and for those
from 120 on when false is set and the bit already counts as used. -/
theorem C13_exact (bs : BitString) (i : UInt8) (v : Bool) :
    (∃ bs', bs.setBit i v = .ok bs' ∧ bs'.bit i = .ok v ∧ (∀ j, j ≠ i → bs'.bit j = bs.bit j) ∧
      bs'.bitUsed.toNat = max bs.bitUsed.toNat (i.toNat + 1)) ↔
    (i.toNat < 120 ∧ i.toNat / 8 < bs.value.length) ∨
      (120 ≤ i.toNat ∧ v = false ∧ i.toNat < bs.bitUsed.toNat) := by
  by_cases h : i.toNat < 120
  · constructor
    · rintro ⟨bs', h1, _⟩
      refine Or.inl ⟨h, ?_⟩
      by_contra hc
      have := (C13_crash_iff bs i v).2 ⟨h, by omega⟩
      rw [h1] at this
      exact this.elim
    · rintro (⟨_, hl⟩ | ⟨h', _⟩)
      · obtain ⟨bs', h1, h2, h3, h4, _⟩ := C13_set_get_partial bs i v hl h
        exact ⟨bs', h1, h2, h3, h4⟩
      · omega
  · have hs : bs.setBit i v = .ok bs := by
      unfold BitString.setBit
      have : ¬ i / 8 < 15 := fun hc => h ((bit_index_lt i).mp hc)
      simp [this]
    have hb : bs.bit i = .ok false := by rw [BitString.bit_eq, if_neg h]
    constructor
    · rintro ⟨bs', h1, h2, _, h4⟩
      rw [hs] at h1
      cases h1
      rw [hb] at h2
      cases h2
      exact Or.inr ⟨by omega, rfl, by omega⟩
    · rintro (⟨h', _⟩ | ⟨_, rfl, h'⟩)
      · exact absurd h' h
      · exact ⟨bs, hs, hb, fun _ _ => rfl, by omega⟩

/-- Twenty octets: bit 119 can be set, bit 120 cannot. -/
example : BitString.bit ⟨120, (List.replicate 14 0) ++ [128]⟩ 119 = .ok true ∧
    BitString.setBit (BitString.new 20) 119 true = .ok ⟨120, (List.replicate 14 0) ++ [128]⟩ ∧
    BitString.setBit (BitString.new 20) 120 true = .ok (BitString.new 20) := by decide +kernel

/-! ## C15 -/

/-- C15, exactly: the octet announces a standard length that is at least, and the least that is, the one
asked for, and no more segments than asked for, exactly when there is at least one segment and the length
is at most 1476. -/
theorem C15_exact (segs apdu : Nat) :
    (apdu ≤ decodeMaxApdu (encodeMaxSegsMaxApdu segs apdu) ∧ decodeMaxSegs (encodeMaxSegsMaxApdu segs apdu) ≤ segs) ↔
      1 ≤ segs ∧ apdu ≤ 1476 := by
  constructor
  · rintro ⟨h1, h2⟩
    constructor
    · by_contra hc
      have h0 : segs = 0 := by omega
      subst h0
      have h3 : decodeMaxSegs (encodeMaxSegsMaxApdu 0 apdu) = 1 := by
        have e : maxSegsLoop 0 6 0 = 0 := by decide
        have e1 : ¬ (0 : Nat) = 64 := by decide
        have e2 : ¬ (0 : Nat) > 64 := by decide
        unfold encodeMaxSegsMaxApdu
        simp only [e, e1, e2, if_false]
        split_ifs <;> decide
      omega
    · by_contra hc
      have := (C15_fails segs apdu (by omega)).1
      omega
  · rintro ⟨h1, h2⟩
    have := C15_octet_partial segs apdu h1 h2
    exact ⟨this.2.1, this.2.2.2.1⟩

example : decodeMaxApdu (encodeMaxSegsMaxApdu 3 1477) = 50 ∧ decodeMaxApdu (encodeMaxSegsMaxApdu 3 1476) = 1476 ∧
    decodeMaxSegs (encodeMaxSegsMaxApdu 0 480) = 1 := by decide +kernel

/-! ## C16 -/

/-- C16, exactly: the frame is the standard's, with its length in the length field, for payloads of at most
65531 octets and no others. -/
theorem C16_exact (dest : Address) (bt : Option SetBroadcastType) (data : List UInt8) :
    (∃ f frame h d, sendFrame dest data bt = .ok frame ∧ frame = [0x81, f] ++ Spec.bigEndian 2 frame.length ++ data ∧
      Dec.bvlc (Dec.new frame) = .ok ((h, none), d) ∧ h.length.toNat = frame.length) ↔ data.length ≤ 65531 := by
  constructor
  · rintro ⟨f, frame, h, d, h1, h2, h3, h4⟩
    by_contra hc
    have := h.length.toNat_lt
    have := congrArg List.length h2
    simp only [List.length_append, length_bigEndian, List.length_cons, List.length_nil] at this
    omega
  · intro hl
    obtain ⟨h, d, h1, _, _, h4, _⟩ := C16_roundtrip_partial (sendFunction dest bt) data (by omega)
    have hlen : (Spec.frame (sendFunction dest bt) data).length = 4 + data.length := by
      simp [Spec.frame, length_bigEndian]; omega
    refine ⟨sendFunction dest bt, _, h, d, C16_frame_partial dest bt data (by omega), ?_, h1, h4⟩
    rw [hlen]
    simp [Spec.frame]

/-- 65531 octets are framed, 65532 are not. -/
example : (List.replicate 65531 (0 : UInt8)).length ≤ 65531 ∧ ¬ (List.replicate 65532 (0 : UInt8)).length ≤ 65531 := by
  rw [List.length_replicate, List.length_replicate]; omega

/-! ## C19 -/

/-- One network: the second read finds nothing. -/
theorem npdu_one (x y : UInt8) : ∃ n nets d, Dec.npdu (Dec.new [1, 0x80, 1, x, y]) = .ok ((n, nets, some .eof), d) := by
  have c03 : (0x80 : UInt8) &&& 3 = 0 := by decide
  have c20 : checkMask 0x80 0x20 = false := by decide
  have c08 : checkMask 0x80 0x08 = false := by decide
  have c04 : checkMask 0x80 0x04 = false := by decide
  have c80 : checkMask 0x80 0x80 = true := by decide
  unfold Dec.npdu
  rw [D.run_bind (show Dec.u8 (Dec.new [1, 0x80, 1, x, y]) = .ok (1, ⟨[0x80, 1, x, y], some 1, none⟩) from rfl),
    D.run_bind (show Dec.u8 ⟨[0x80, 1, x, y], some 1, none⟩ = .ok (0x80, ⟨[1, x, y], some 0x80, none⟩) from rfl)]
  rw [c20, c08, c04, c80, c03]
  rw [D.run_bind (show Dec.optAddress false ⟨[1, x, y], some 0x80, none⟩ = .ok (none, ⟨[1, x, y], some 0x80, none⟩) from rfl),
    D.run_bind (show Dec.optAddress false ⟨[1, x, y], some 0x80, none⟩ = .ok (none, ⟨[1, x, y], some 0x80, none⟩) from rfl),
    D.run_bind (show Dec.optU8 false ⟨[1, x, y], some 0x80, none⟩ = .ok (0, ⟨[1, x, y], some 0x80, none⟩) from rfl)]
  dsimp only
  rw [if_pos rfl, D.run_bind (show Dec.u8 ⟨[1, x, y], some 0x80, none⟩ = .ok (1, ⟨[x, y], some 1, none⟩) from rfl)]
  rw [show decide ((1 : UInt8) > 0x80) = false from by decide,
    D.run_bind (show Dec.optU16 false ⟨[x, y], some 1, none⟩ = .ok (0, ⟨[x, y], some 1, none⟩) from rfl)]
  rw [if_neg (by decide), if_pos rfl]
  rw [D.run_bind (show Dec.u16 ⟨[x, y], some 1, none⟩ = .ok (rd16 x y, ⟨[], some y, none⟩) from rfl)]
  exact ⟨_, _, _, rfl⟩

/-- C19, exactly: the networks of an I-Am-Router-To-Network message are what is returned when there are at least
two and no others than the first two among them. -/
theorem C19_exact (nets : List UInt16) :
    (∃ n l d, Dec.npdu (Dec.new (iAmRouter nets)) = .ok ((n, some l, none), d) ∧
      (∀ x, x ∈ l.map Address.net ↔ x ∈ nets) ∧ (l.map Address.net).Nodup) ↔
    ∃ a b more, nets = a :: b :: more ∧ ∀ x ∈ more, x = a ∨ x = b := by
  constructor
  · rintro ⟨n, l, d, h, hm, _⟩
    rcases nets with _ | ⟨a, _ | ⟨b, more⟩⟩
    · have : ∃ n nets d, Dec.npdu (Dec.new (iAmRouter [])) = .ok ((n, nets, some .eof), d) := ⟨_, _, _, rfl⟩
      obtain ⟨n', l', d', h'⟩ := this
      rw [h'] at h
      cases h
    · obtain ⟨n', l', d', h'⟩ := npdu_one (a >>> 8).toUInt8 a.toUInt8
      have e : iAmRouter [a] = ([1, 0x80, 1, (a >>> 8).toUInt8, a.toUInt8] : List UInt8) := by simp [iAmRouter, be16]
      rw [e, h'] at h
      cases h
    · refine ⟨a, b, more, rfl, fun x hx => ?_⟩
      obtain ⟨n', d', h', _⟩ := C19_two_or_more a b more
      rw [h'] at h
      cases h
      have := (hm x).2 (by simp [hx])
      by_cases hab : a = b
      · rw [if_pos hab] at this; left; simpa using this
      · rw [if_neg hab] at this; simpa using this
  · rintro ⟨a, b, more, rfl, hall⟩
    obtain ⟨n, d, h, _⟩ := C19_two_or_more a b more
    refine ⟨n, _, d, h, fun x => ?_, ?_⟩
    · constructor
      · intro hx
        by_cases hab : a = b
        · rw [if_pos hab] at hx; simp at hx; simp [hx]
        · rw [if_neg hab] at hx; simp at hx; rcases hx with e | e <;> simp [e]
      · intro hx
        have : x = a ∨ x = b := by
          rcases List.mem_cons.1 hx with e | hx
          · exact Or.inl e
          rcases List.mem_cons.1 hx with e | hx
          · exact Or.inr e
          · exact hall x hx
        by_cases hab : a = b
        · rw [if_pos hab]; subst hab; simpa using this
        · rw [if_neg hab]; simpa using this
    · by_cases hab : a = b <;> simp [hab]

/-- Networks 5, 6 and again 5: complete; 5 and 5 only: complete; 5 alone is an error. -/
example : (∀ x ∈ [(5 : UInt16)], x = 5 ∨ x = 6) ∧ ∃ n d, Dec.npdu (Dec.new (iAmRouter [5, 5]))
    = .ok ((n, some [{ net := 5 }], none), d) := ⟨by decide, _, _, rfl⟩

/-! ## C22 -/

/-- C22, exactly: limits go out as the standard's Who-Is with these limits when both are within 0..4194302,
and never otherwise. -/
theorem C22_exact (low high : Int32) (hl : 0 ≤ low.toInt) (hh : 0 ≤ high.toInt) :
    Enc.new.whoIs low high = (⟨Spec.whoIs (some (low.toInt.toNat, high.toInt.toNat)), none⟩, none) ↔
      low.toInt ≤ 4194302 ∧ high.toInt ≤ 4194302 := by
  constructor
  · intro h
    by_contra hc
    rw [(C22_unlimited low high (by omega)).1] at h
    have := congrArg (fun x => x.1.buf.length) h
    simp [Spec.whoIs, Spec.ctxUnsigned, Spec.tagHeader, Spec.unconfirmedHeader] at this
  · rintro ⟨h1, h2⟩
    obtain ⟨body, d, e1, e2, _⟩ := C22_limits_partial low high ⟨hl, by omega⟩ ⟨hh, by omega⟩
    rw [e1, e2]

example : Enc.new.whoIs 0 4194302 = (⟨Spec.whoIs (some (0, 4194302)), none⟩, none) ∧
    Enc.new.whoIs 0 4194303 ≠ (⟨Spec.whoIs (some (0, 4194303)), none⟩, none) := by decide +kernel

/-! ## C29 -/

/-- The BACnet value a Go value is in its own type; none for the types the encoder refuses. -/
def C29_own : Scalar → Option AppVal
  | .null => some .null
  | .bool b => some (.bool b)
  | .uint v => some (.unsigned v.toNat)
  | .int v => some (.signed v.toInt)
  | .real b => some (.real b)
  | .double b => some (.double b)
  | .str l => some (.chars l)
  | .enum v => some (.enum v.toNat)
  | .objId id => some (.objId id.typ.toNat id.inst.toNat)
  | _ => none

/-- The octets of an int32 are the standard's exactly when its two's complement in the fewest octets is
also its 32-bit pattern without leading zeros. -/
theorem int_encoding_iff (v : Int32) :
    Enc.new.appData (.one (.int v)) false = .ok (none, ⟨(AppVal.signed v.toInt).encoding, none⟩) ↔
      ((0 ≤ v.toInt ∧ v.toInt ≤ 127) ∨ (256 ≤ v.toInt ∧ v.toInt ≤ 32767) ∨
        (65536 ≤ v.toInt ∧ v.toInt ≤ 8388607) ∨ 16777216 ≤ v.toInt ∨ v.toInt < -8388608) := by
  have hu := v.toUInt32.toNat_lt
  have hv : v.toInt = (v.toUInt32.toNat : Int).bmod (2 ^ 32) := by
    have := Dec.toInt_toInt32 v.toUInt32; simpa using this
  rw [Enc.appData_int, Enc.new_write]
  generalize v.toUInt32.toNat = u at *
  generalize v.toInt = x at *
  have hx : x = if u < 2 ^ 31 then (u : Int) else (u : Int) - 2 ^ 32 := by
    rw [hv, Int.bmod_def]; split_ifs <;> omega
  clear hv
  have e : AppVal.encoding (.signed x) = Spec.tagHeader 3 false (Spec.signedMinOctets x) ++
      Spec.bigEndian (Spec.signedMinOctets x) (x % (256 : Int) ^ (Spec.signedMinOctets x)).toNat := by
    simp [AppVal.encoding, AppVal.tag, AppVal.lenField, AppVal.contents, Spec.twosComplement, length_bigEndian]
  rw [e]
  have hm : Spec.minOctets u ≤ 4 ∧ 1 ≤ Spec.minOctets u := by
    unfold Spec.minOctets; split_ifs <;> omega
  have hs : Spec.signedMinOctets x ≤ 4 := by
    unfold Spec.signedMinOctets; split_ifs <;> omega
  have key : Spec.minOctets u = Spec.signedMinOctets x ↔
      ((0 ≤ x ∧ x ≤ 127) ∨ (256 ≤ x ∧ x ≤ 32767) ∨ (65536 ≤ x ∧ x ≤ 8388607) ∨ 16777216 ≤ x ∨ x < -8388608) := by
    unfold Spec.minOctets Spec.signedMinOctets
    rw [hx]
    split_ifs <;> omega
  rw [← key]
  constructor
  · intro h
    simp only [Outcome.ok.injEq, Prod.mk.injEq, Enc.mk.injEq, and_true, true_and] at h
    have := congrArg List.head? h
    simp only [Spec.tagHeader, Spec.numNibble, Spec.lenBits, List.cons_append, List.nil_append,
      List.head?_cons, Option.some.injEq] at this
    have := congrArg UInt8.toNat this
    simp only [Nat.reduceLeDiff, if_true, Bool.false_eq_true, if_false, hm.1, hs, UInt8.toNat_ofNat'] at this
    omega
  · intro h
    rw [← h]
    have hmod : (x % (256 : Int) ^ Spec.minOctets u).toNat = u % 256 ^ Spec.minOctets u := by
      have : x % (256 : Int) ^ Spec.minOctets u = ((u % 256 ^ Spec.minOctets u : Nat) : Int) := by
        rcases hm with ⟨a, b⟩
        have : Spec.minOctets u = 1 ∨ Spec.minOctets u = 2 ∨ Spec.minOctets u = 3 ∨ Spec.minOctets u = 4 := by omega
        rw [hx]
        rcases this with e | e | e | e <;> rw [e] <;> split_ifs <;> omega
      rw [this]; rfl
    have hfit : u % 256 ^ Spec.minOctets u = u := by
      apply Nat.mod_eq_of_lt
      unfold Spec.minOctets
      split_ifs <;> omega
    rw [hmod, hfit]
    rfl

/-- The values that are encoded as the standard demands: all but float64, and of the int32 those whose two's
complement in the fewest octets is their bit pattern in the fewest octets. -/
def C29_Right : Scalar → Prop
  | .double _ => False
  | .int x => (0 ≤ x.toInt ∧ x.toInt ≤ 127) ∨ (256 ≤ x.toInt ∧ x.toInt ≤ 32767) ∨
      (65536 ≤ x.toInt ∧ x.toInt ≤ 8388607) ∨ 16777216 ≤ x.toInt ∨ x.toInt < -8388608
  | _ => True

/-- C29, exactly, for one value: the octets are those of the value in its own type for everything but float64
and the int32 whose two's complement has other octets than its bit pattern. -/
theorem C29_value_exact (s : Scalar) (v : AppVal) (hv : C29_own s = some v) (hw : v.WF) :
    Enc.new.appData (.one s) false = .ok (none, ⟨v.encoding, none⟩) ↔
      C29_Right s := by
  cases s <;> simp only [C29_own, Option.some.injEq, reduceCtorEq] at hv
  all_goals subst hv
  case null => exact ⟨fun _ => trivial, fun _ => by rw [Enc.appData_null, Enc.new_write]⟩
  case bool b => exact ⟨fun _ => trivial, fun _ => by rw [Enc.appData_bool, Enc.new_write]⟩
  case uint x => exact ⟨fun _ => trivial, fun _ => by rw [Enc.appData_uint, Enc.new_write]⟩
  case real x => exact ⟨fun _ => trivial, fun _ => by rw [Enc.appData_real, Enc.new_write]⟩
  case enum x => exact ⟨fun _ => trivial, fun _ => by rw [Enc.appData_enum, Enc.new_write]⟩
  case str l => exact ⟨fun _ => trivial, fun _ => by rw [Enc.appData_str _ _ hw, Enc.new_write]⟩
  case int x => exact int_encoding_iff x
  case objId id =>
    refine ⟨fun _ => trivial, fun _ => ?_⟩
    rw [Enc.appData_objId, Enc.new_write, Nat.mod_eq_of_lt hw.1, Nat.mod_eq_of_lt hw.2]
  case double b =>
    refine ⟨fun h => ?_, fun h => h.elim⟩
    rw [Enc.appData_double, Enc.new_write] at h
    simp only [Outcome.ok.injEq, Prod.mk.injEq, Enc.mk.injEq, and_true, true_and] at h
    have := congrArg List.length h
    simp [AppVal.encoding, AppVal.tag, AppVal.lenField, AppVal.contents, Spec.tagHeader, Spec.numExt,
      Spec.lenExt, length_bigEndian] at this

/-- What WriteProperty sends, whatever octets the value has. -/
theorem writeProperty_octets (invoke : UInt8) (data : PropertyData) (p : Property)
    (more : List Property) (bs : List UInt8) (hid : C04_Valid data.object.id)
    (hp : data.object.properties = p :: more) (hpt : p.typ.toNat ≤ 4194303)
    (ha : Enc.new.appData p.data (pointTypeBOBV data.object) = .ok (none, ⟨bs, none⟩)) :
    Enc.new.writeProperty invoke data = .ok (⟨Spec.writeProperty invoke data.object.id.typ.toNat
      data.object.id.inst.toNat p.ref bs
      (if p.priority.toNat = 0 then none else some p.priority.toNat), none⟩, none) := by
  unfold Enc.writeProperty
  simp only [Enc.apdu_request, Enc.readPropertyHeader_ok _ _ p more hid hp hpt, Outcome.ok_bind,
    hp, Enc.write_write, Option.isSome_none, Bool.false_eq_true, if_false, Enc.tagNum_open,
    Enc.appData'_any ha, Enc.tagNum_close, optPriority_eq, Enc.new_write, Outcome.pure_eq,
    Spec.writeProperty, List.append_assoc]
  have e4 : (3 + 1 : UInt8).toNat = 4 := rfl
  rw [e4]
  by_cases h : p.priority.toNat = 0 <;> simp [h, Enc.write]

/-- C29, exactly, for a write of one value the encoder accepts, to anything but a binary present value: the
request is the standard's for every value but float64 and the int32 of the ranges left out below. -/
theorem C29_exact (invoke : UInt8) (data : PropertyData) (p : Property) (more : List Property) (s : Scalar)
    (v : AppVal) (hid : C04_Valid data.object.id) (hp : data.object.properties = p :: more)
    (hpt : p.typ.toNat ≤ 4194303) (hb : ¬ IsBinaryPresentValue data.object p) (hs : p.data = .one s)
    (hv : C29_own s = some v) (hw : v.WF) :
    Enc.new.writeProperty invoke data = .ok (⟨Spec.writeProperty invoke data.object.id.typ.toNat
      data.object.id.inst.toNat p.ref v.encoding
      (if p.priority.toNat = 0 then none else some p.priority.toNat), none⟩, none) ↔
      C29_Right s := by
  rw [← C29_value_exact s v hv hw]
  have hpt' : pointTypeBOBV data.object = false := by
    rw [← Bool.not_eq_true]; exact fun hc => hb ((pointType_iff data.object p more hp).mp hc)
  obtain ⟨bs, hbs⟩ : ∃ bs, Enc.new.appData (.one s) false = .ok (none, ⟨bs, none⟩) := by
    cases s <;> simp only [C29_own, Option.some.injEq, reduceCtorEq] at hv
    case null => exact ⟨_, by rw [Enc.appData_null, Enc.new_write]⟩
    case bool b => exact ⟨_, by rw [Enc.appData_bool, Enc.new_write]⟩
    case uint x => exact ⟨_, by rw [Enc.appData_uint, Enc.new_write]⟩
    case real x => exact ⟨_, by rw [Enc.appData_real, Enc.new_write]⟩
    case enum x => exact ⟨_, by rw [Enc.appData_enum, Enc.new_write]⟩
    case int x => exact ⟨_, by rw [Enc.appData_int, Enc.new_write]⟩
    case double x => exact ⟨_, by rw [Enc.appData_double, Enc.new_write]⟩
    case objId x => exact ⟨_, by rw [Enc.appData_objId, Enc.new_write]⟩
    case str l =>
      subst hv
      exact ⟨_, by rw [Enc.appData_str _ _ hw, Enc.new_write]⟩
  have ha : Enc.new.appData p.data (pointTypeBOBV data.object) = .ok (none, ⟨bs, none⟩) := by
    rw [hpt', hs, hbs]
  rw [writeProperty_octets invoke data p more bs hid hp hpt ha, hbs]
  simp only [Spec.writeProperty, Outcome.ok.injEq, Prod.mk.injEq, Enc.mk.injEq, and_true, true_and,
    List.append_cancel_right_eq, List.append_cancel_left_eq]

/-- An int32 of 200, of -5 and of -9000000: the first two go out wrong. -/
example : ¬ Enc.new.appData (.one (.int 200)) false = .ok (none, ⟨(AppVal.signed 200).encoding, none⟩) ∧
    ¬ Enc.new.appData (.one (.int (-5))) false = .ok (none, ⟨(AppVal.signed (-5)).encoding, none⟩) ∧
    Enc.new.appData (.one (.int (-9000000))) false = .ok (none, ⟨(AppVal.signed (-9000000)).encoding, none⟩) := by
  decide +kernel

/-! ## C32 -/

theorem flatMap_inj {α : Type} (f g : α → List UInt8) (l : List α) (hlen : ∀ a ∈ l, (f a).length = (g a).length)
    (h : l.flatMap f = l.flatMap g) : ∀ a ∈ l, f a = g a := by
  induction l with
  | nil => intro a ha; cases ha
  | cons x xs ih =>
    rw [List.flatMap_cons, List.flatMap_cons] at h
    obtain ⟨h1, h2⟩ := List.append_inj h (hlen x (by simp))
    intro a ha
    rcases List.mem_cons.1 ha with rfl | ha
    · exact h1
    · exact ih (fun b hb => hlen b (by simp [hb])) h2 a ha

theorem flatMap_length {α : Type} (f g : α → List UInt8) (l : List α)
    (hlen : ∀ a ∈ l, (f a).length = (g a).length) : (l.flatMap f).length = (l.flatMap g).length := by
  induction l with
  | nil => rfl
  | cons x xs ih =>
    rw [List.flatMap_cons, List.flatMap_cons, List.length_append, List.length_append, hlen x (by simp),
      ih fun b hb => hlen b (by simp [hb])]

/-- C32, exactly: of the requests for values the encoder gets right (C29), those without any priority are the
standard's, and no others. -/
theorem C32_exact (invoke : UInt8) (val : Property → AppVal) (os : List Object)
    (h : ∀ o ∈ os, C04_Valid o.id) (hv : ∀ o ∈ os, ∀ p ∈ o.properties, OwnType p.data (val p)) :
    Enc.new.writeMultiple invoke os = .ok (⟨Spec.writeMultiple invoke (os.map (writeSpecOf val)), none⟩, none) ↔
      ∀ o ∈ os, ∀ p ∈ o.properties, p.priority = 0 := by
  refine ⟨fun he => ?_, C32_layout_partial invoke val os h hv⟩
  unfold Enc.writeMultiple at he
  simp only [Enc.apdu_request, objects_write val os h hv, Outcome.ok_bind,
    Enc.new_write, Outcome.pure_eq, Spec.writeMultiple, List.flatMap_map] at he
  have e : os.flatMap (writtenObject 2 val) = os.flatMap (writtenObject 3 val) := by
    rw [show (writtenObject 3 val) = fun o => (writeSpecOf val o).octets from
      funext fun o => writtenObject_spec val o]
    simpa [Enc.write] using he
  have hc : ∀ (t : Nat) (p : Property), (Spec.ctxUnsigned t p.priority.toNat).length =
      (Spec.numExt t).length + 1 + 1 := by
    intro t p
    have hm : Spec.minOctets p.priority.toNat = 1 := by
      unfold Spec.minOctets; rw [if_pos p.priority.toNat_lt]
    simp [Spec.ctxUnsigned, Spec.tagHeader, Spec.unsignedOctets, length_bigEndian, hm, Spec.lenExt]
  have hlp : ∀ p : Property, (writtenProp 2 val p).length = (writtenProp 3 val p).length := by
    intro p
    unfold writtenProp
    split_ifs
    · rfl
    · simp only [List.length_append, hc]
      simp [Spec.numExt]
  have hlo : ∀ o : Object, (writtenObject 2 val o).length = (writtenObject 3 val o).length := by
    intro o
    unfold writtenObject
    simp only [List.length_append, flatMap_length _ _ o.properties fun p _ => hlp p]
  intro o ho p hp
  have e1 := flatMap_inj _ _ os (fun o _ => hlo o) e o ho
  unfold writtenObject at e1
  simp only [List.append_cancel_left_eq, List.append_cancel_right_eq] at e1
  have e2 := flatMap_inj _ _ o.properties (fun p _ => hlp p) e1 p hp
  unfold writtenProp at e2
  simp only [List.append_cancel_left_eq] at e2
  by_contra hne
  have hn : p.priority.toNat ≠ 0 := fun hc => hne (UInt8.toNat_inj.mp hc)
  rw [if_neg hn, if_neg hn] at e2
  have e3 := congrArg List.head? e2
  have hm : Spec.minOctets p.priority.toNat = 1 := by
    unfold Spec.minOctets; rw [if_pos p.priority.toNat_lt]
  simp [Spec.ctxUnsigned, Spec.tagHeader, hm, Spec.numNibble, Spec.lenBits] at e3

/-- Present value of AnalogOutput 7 written with priority 8, and without. -/
example (val : Property → AppVal) (hv : ∀ x, val ⟨85, arrayAll, .one (.real 7), x⟩ = .real 7) :
    Enc.new.writeMultiple 3 [{ id := ⟨1, 7⟩, properties := [⟨85, arrayAll, .one (.real 7), 8⟩] }] ≠
      .ok (⟨Spec.writeMultiple 3 ([{ id := ⟨1, 7⟩, properties := [⟨85, arrayAll, .one (.real 7), 8⟩] }].map (writeSpecOf val)), none⟩, none) := by
  rw [ne_eq, C32_exact 3 val _ (fun o ho => by cases List.mem_singleton.1 ho; exact ⟨by decide, by decide⟩)
    (fun o ho p hp => by
      cases List.mem_singleton.1 ho
      cases List.mem_singleton.1 hp
      exact ⟨.real 7, rfl, by rw [hv]; exact rfl, by rw [hv]; exact trivial, by rw [hv]; exact trivial⟩)]
  intro h
  have := h _ (List.mem_singleton.2 rfl) _ (List.mem_singleton.2 rfl)
  revert this
  decide

/-! ## C45 -/

/-- A request is addressed to a station exactly when the length octet is right. -/
theorem addressed_iff (data : List UInt8) (dest : Address) (req : List UInt8)
    (hd : data.drop 4 = requestOctets dest ++ req) (hl : dest.adr.length < 256) :
    Addressed data (if dest.net = 0 then none else some ⟨dest.net.toNat, dest.adr⟩) ↔
      dest.net = 0 ∨ dest.len.toNat = dest.adr.length := by
  refine ⟨fun h => ?_, fun h => addressed_request data dest req hd hl h⟩
  by_cases h0 : dest.net = 0
  · exact Or.inl h0
  · right
    rw [if_neg h0] at h
    obtain ⟨hh, rest, hok, e1, e2, e3, e4, _⟩ := h
    rw [hd] at e4
    have hoct : ∃ c tail, hh.octets = [hh.version, c] ++ (Spec.bigEndian 2 dest.net.toNat ++
        (UInt8.ofNat dest.adr.length :: tail)) := by
      unfold NetHeader.octets NetAddr.octets
      rw [e1]
      simp only [List.append_assoc, List.singleton_append]
      exact ⟨_, _, rfl⟩
    obtain ⟨c, tail, ho⟩ := hoct
    unfold requestOctets at e4
    rw [if_neg h0, ho] at e4
    have := congrArg (fun l => l[4]?) e4
    simp [be16, Spec.bigEndian] at this
    rw [this]
    simp; omega

/-- C45, exactly, for ReadProperty, WriteProperty and ReadMultiProperty: the datagram is addressed to the device
when that is on the local network, has a hardware address of one octet, or none and length 0. -/
theorem C45_exact (dev : Device) (s : Sent) (hs : SentTo dev s) (hl : dev.addr.adr.length < 256) :
    Addressed s.data (if dev.addr.net = 0 then none else some ⟨dev.addr.net.toNat, dev.addr.adr⟩) ↔
      dev.addr.net = 0 ∨ dev.addr.adr.length = 1 ∨ (dev.addr.adr = [] ∧ dev.addr.len = 0) := by
  obtain ⟨req, h⟩ := sentTo_octets hs
  have := addressed_iff s.data dev.addr.setLength req h (by unfold Address.setLength; split <;> exact hl)
  have e : (if dev.addr.setLength.net = 0 then none else some (⟨dev.addr.setLength.net.toNat, dev.addr.setLength.adr⟩ : NetAddr)) =
      (if dev.addr.net = 0 then none else some ⟨dev.addr.net.toNat, dev.addr.adr⟩) := by
    unfold Address.setLength; split <;> rfl
  rw [e] at this
  rw [this]
  unfold Address.setLength
  by_cases hn : dev.addr.adr = []
  · have hz : dev.addr.len.toNat = 0 ↔ dev.addr.len = 0 := by
      rw [← UInt8.toNat_inj]; rfl
    simp [hn, hz]
  · have : 0 < dev.addr.adr.length := List.length_pos_iff.2 hn
    rw [if_pos this]
    simp only [hn, false_and, or_false]
    exact or_congr Iff.rfl eq_comm

/-- C45, exactly, for WriteMultiProperty: the length octet of the device's address must be right. -/
theorem C45_writeMulti_exact (dev : Device) (s : Sent) (hs : SentToByWriteMulti dev s)
    (hl : dev.addr.adr.length < 256) :
    Addressed s.data (if dev.addr.net = 0 then none else some ⟨dev.addr.net.toNat, dev.addr.adr⟩) ↔
      dev.addr.net = 0 ∨ dev.addr.len.toNat = dev.addr.adr.length := by
  obtain ⟨req, h⟩ := sentToByWriteMulti_octets hs
  exact addressed_iff s.data dev.addr req h hl

/-- A device behind a router with a hardware address of six octets is never addressed. -/
example (s : Sent) (hs : SentTo { addr := { net := 2, adr := [1, 2, 3, 4, 5, 6], len := 6 } } s) :
    ¬ Addressed s.data (some ⟨2, [1, 2, 3, 4, 5, 6]⟩) := by
  intro h
  have := (C45_exact _ s hs (by decide)).1 h
  revert this
  decide

end Bac.Props
