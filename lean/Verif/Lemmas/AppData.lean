import Verif.Lemmas.Values
import Verif.Spec.AppVal
/-!
# Lemmas about application values
-/

namespace Bac

theorem be64_spec (x : UInt64) : be64 x = Spec.bigEndian 8 x.toNat := by
  have := x.toNat_lt
  simp only [be64, Spec.bigEndian, List.nil_append, List.cons_append]
  congr 1
  · apply u8_ofNat_eq; simp [Nat.shiftRight_eq_div_pow]; omega
  congr 1
  · apply u8_ofNat_eq; simp [Nat.shiftRight_eq_div_pow]; omega
  congr 1
  · apply u8_ofNat_eq; simp [Nat.shiftRight_eq_div_pow]; omega
  congr 1
  · apply u8_ofNat_eq; simp [Nat.shiftRight_eq_div_pow]; omega
  congr 1
  · apply u8_ofNat_eq; simp [Nat.shiftRight_eq_div_pow]; omega
  congr 1
  · apply u8_ofNat_eq; simp [Nat.shiftRight_eq_div_pow]; omega
  congr 1
  · apply u8_ofNat_eq; simp [Nat.shiftRight_eq_div_pow]
  congr 1
  apply u8_ofNat_eq; simp

/-! ## Encoder: each case as one write -/

namespace Enc
open Spec (AppVal)

theorem appData_null (e : Enc) (f : Bool) :
    e.appData (.one .null) f = .ok (none, e.write AppVal.null.encoding) := by
  unfold appData; rw [tag_eq]; rfl

theorem appData_bool (e : Enc) (b : Bool) :
    e.appData (.one (.bool b)) false = .ok (none, e.write (AppVal.bool b).encoding) := by
  simp only [appData, Bool.false_eq_true, if_false, boolean]; rw [tag_eq]
  cases b <;> rfl

theorem appData_uint (e : Enc) (v : UInt32) :
    e.appData (.one (.uint v)) false
      = .ok (none, e.write (AppVal.unsigned v.toNat).encoding) := by
  simp only [appData, Bool.false_eq_true, if_false]
  rw [unsigned_eq, tag_eq, write_write, valueLength_spec, ofNat_minOctets_toNat]
  simp only [AppVal.encoding, AppVal.tag, AppVal.lenField, AppVal.contents]
  rw [show (Spec.unsignedOctets v.toNat).length = Spec.minOctets v.toNat from
    length_bigEndian _ _]
  rfl

theorem appData_enum (e : Enc) (v : UInt32) :
    e.appData (.one (.enum v)) false
      = .ok (none, e.write (AppVal.enum v.toNat).encoding) := by
  simp only [appData, Bool.false_eq_true, if_false, enumerated]
  rw [unsigned_eq, tag_eq, write_write, valueLength_spec, ofNat_minOctets_toNat]
  simp only [AppVal.encoding, AppVal.tag, AppVal.lenField, AppVal.contents]
  rw [show (Spec.unsignedOctets v.toNat).length = Spec.minOctets v.toNat from
    length_bigEndian _ _]
  rfl

theorem appData_uint_enum (e : Enc) (v : UInt32) :
    e.appData (.one (.uint v)) true
      = .ok (none, e.write (AppVal.enum v.toNat).encoding) := by
  simp only [appData, if_true, enumerated]
  rw [unsigned_eq, tag_eq, write_write, valueLength_spec, ofNat_minOctets_toNat]
  simp only [AppVal.encoding, AppVal.tag, AppVal.lenField, AppVal.contents]
  rw [show (Spec.unsignedOctets v.toNat).length = Spec.minOctets v.toNat from
    length_bigEndian _ _]
  rfl

/-- A signed integer is written like the unsigned integer with the same bits. -/
theorem appData_int (e : Enc) (v : Int32) :
    e.appData (.one (.int v)) false
      = .ok (none, e.write (Spec.tagHeader 3 false (Spec.minOctets v.toUInt32.toNat)
          ++ Spec.unsignedOctets v.toUInt32.toNat)) := by
  simp only [appData, Bool.false_eq_true, if_false]
  rw [unsigned_eq, tag_eq, write_write, valueLength_spec, ofNat_minOctets_toNat]
  rfl

theorem appData_real (e : Enc) (b : UInt32) :
    e.appData (.one (.real b)) false = .ok (none, e.write (AppVal.real b).encoding) := by
  simp only [appData, Bool.false_eq_true, if_false]
  rw [tag_eq, write_write, be32_spec]
  simp only [AppVal.encoding, AppVal.tag, AppVal.lenField, AppVal.contents, length_bigEndian]
  rfl

theorem appData_double (e : Enc) (b : UInt64) :
    e.appData (.one (.double b)) false
      = .ok (none, e.write (Spec.tagHeader 5 false 4 ++ Spec.bigEndian 8 b.toNat)) := by
  simp only [appData, Bool.false_eq_true, if_false]
  rw [tag_eq, write_write, be64_spec]
  rfl

theorem appData_str (e : Enc) (s : List UInt8) (h : s.length + 1 < 2 ^ 32) :
    e.appData (.one (.str s)) false = .ok (none, e.write (AppVal.chars s).encoding) := by
  simp only [appData, Bool.false_eq_true, if_false, string]
  rw [tag_eq, write_write, write_write]
  simp only [AppVal.encoding, AppVal.tag, AppVal.lenField, AppVal.contents, List.length_cons]
  rw [UInt32.toNat_ofNat_of_lt' h]
  simp only [List.cons_append, List.nil_append]
  rfl

theorem appData_objId (e : Enc) (id : ObjectID) :
    e.appData (.one (.objId id)) false
      = .ok (none, e.write
          (AppVal.objId (id.typ.toNat % 2 ^ 10) (id.inst.toNat % 2 ^ 22)).encoding) := by
  simp only [appData, Bool.false_eq_true, if_false]
  rw [tag_eq, objectId_eq, write_write]
  simp only [AppVal.encoding, AppVal.tag, AppVal.lenField, AppVal.contents, Spec.objectId,
    length_bigEndian]
  rfl

end Enc

/-! ## Decoder -/

namespace Dec
open Spec (AppVal)

/-- Reading a header and then the contents. -/
theorem parses_appData_of {num : UInt8} {v : UInt32} {content : List UInt8}
    {r : Scalar × Option GoErr} (h : Parses (appDataOfTag num v.toNat) content r) :
    Parses appData (Spec.tagHeader num.toNat false v.toNat ++ content) r := by
  unfold appData
  exact Parses.bind (parses_tagHeader num false v) h

/-- `pure (f x, ← d.Error())` after a successful read. -/
theorem Parses.withError {α : Type} {m : D α} {bs : List UInt8} {a : α} {f : α → Scalar}
    (h : Parses m bs a) :
    Parses (m >>= fun v => error >>= fun e => (pure (f v, e) : D (Scalar × Option GoErr)))
      bs (f a, none) :=
  Bac.Parses.bind' h (Bac.Parses.bind0 parses_error (Bac.Parses.pure _))

theorem parses_null : Parses appData AppVal.null.encoding (.null, none) :=
  parses_appData_of (num := 0) (v := 0) (content := []) (Parses.pure _)

theorem parses_bool (b : Bool) : Parses appData (AppVal.bool b).encoding (.bool b, none) := by
  cases b
  · exact parses_appData_of (num := 1) (v := 0) (content := [])
      (Bac.Parses.bind0 parses_error (Bac.Parses.pure _))
  · exact parses_appData_of (num := 1) (v := 1) (content := [])
      (Bac.Parses.bind0 parses_error (Bac.Parses.pure _))

theorem parses_uint (v : UInt32) :
    Parses appData (AppVal.unsigned v.toNat).encoding (.uint v, none) := by
  simp only [AppVal.encoding, AppVal.tag, AppVal.lenField, AppVal.contents]
  rw [show (Spec.unsignedOctets v.toNat).length = Spec.minOctets v.toNat from
    length_bigEndian _ _, ← Enc.ofNat_minOctets_toNat]
  refine parses_appData_of (num := 2) (v := UInt32.ofNat (Spec.minOctets v.toNat)) ?_
  rw [Enc.ofNat_minOctets_toNat]
  exact Parses.withError (f := .uint) (parses_unsigned v)

theorem parses_enum (v : UInt32) :
    Parses appData (AppVal.enum v.toNat).encoding (.uint v, none) := by
  simp only [AppVal.encoding, AppVal.tag, AppVal.lenField, AppVal.contents]
  rw [show (Spec.unsignedOctets v.toNat).length = Spec.minOctets v.toNat from
    length_bigEndian _ _, ← Enc.ofNat_minOctets_toNat]
  refine parses_appData_of (num := 9) (v := UInt32.ofNat (Spec.minOctets v.toNat)) ?_
  rw [Enc.ofNat_minOctets_toNat]
  exact Parses.withError (f := .uint) (parses_unsigned v)

theorem parses_real (b : UInt32) : Parses appData (AppVal.real b).encoding (.real b, none) := by
  simp only [AppVal.encoding, AppVal.tag, AppVal.lenField, AppVal.contents, length_bigEndian]
  refine parses_appData_of (num := 4) (v := 4) ?_
  rw [← be32_spec]
  exact Parses.withError (f := .real) (parses_be32 b)

/-- The decoder reads eight octets whatever length is announced. -/
theorem parses_double (n : UInt32) (b : UInt64) :
    Parses appData (Spec.tagHeader 5 false n.toNat ++ Spec.bigEndian 8 b.toNat)
      (.double b, none) := by
  refine parses_appData_of (num := 5) (v := n) ?_
  rw [← be64_spec]
  exact Parses.withError (f := .double) (parses_be64 b)

theorem parses_octets (l : List UInt8) (h : l.length < 2 ^ 32) :
    Parses appData (AppVal.octets l).encoding (.octets l, none) := by
  simp only [AppVal.encoding, AppVal.tag, AppVal.lenField, AppVal.contents]
  have hl : (UInt32.ofNat l.length).toNat = l.length := UInt32.toNat_ofNat_of_lt' h
  rw [← hl]
  refine parses_appData_of (num := 6) (v := UInt32.ofNat l.length) ?_
  rw [hl]
  exact Parses.withError (f := .octets) (parses_bytes l)

theorem parses_string (l : List UInt8) : Parses (string (l.length : Int)) (0 :: l) (l, none) := by
  unfold string
  refine Parses.bind (as := [0]) (parses_u8 0) ?_
  simp only [true_or, if_true, show ¬ ((l.length : Int) < 0) by omega, if_false, Int.toNat_natCast,
    show ¬ ((0 : UInt8) = 4) by decide]
  exact Parses.bind' (parses_bytes l) (Parses.bind0 parses_error (Parses.pure _))

theorem parses_str (l : List UInt8) (h : l.length + 1 < 2 ^ 32) :
    Parses appData (AppVal.chars l).encoding (.str l, none) := by
  simp only [AppVal.encoding, AppVal.tag, AppVal.lenField, AppVal.contents, List.length_cons]
  have hl : (UInt32.ofNat (l.length + 1)).toNat = l.length + 1 := UInt32.toNat_ofNat_of_lt' h
  rw [← hl]
  refine parses_appData_of (num := 7) (v := UInt32.ofNat (l.length + 1)) ?_
  rw [hl]
  have := parses_string l
  unfold appDataOfTag
  have e : ((l.length + 1 : Nat) : Int) - 1 = (l.length : Int) := by omega
  simp only [e]
  exact Parses.bind' this (Parses.pure _)

theorem parses_objId (t i : Nat) (ht : t < 2 ^ 10) (hi : i < 2 ^ 22) :
    Parses appData (AppVal.objId t i).encoding
      (.objId ⟨UInt16.ofNat t, UInt32.ofNat i⟩, none) := by
  simp only [AppVal.encoding, AppVal.tag, AppVal.lenField, AppVal.contents]
  rw [show (Spec.objectId t i).length = 4 from length_bigEndian _ _]
  refine parses_appData_of (num := 12) (v := 4) ?_
  exact Parses.withError (f := .objId) (parses_objectId t i ht hi)

/-! ### Signed integers -/

theorem toInt_toInt32 (x : UInt32) : x.toInt32.toInt = (x.toNat : Int).bmod (2 ^ 32) := by
  simp [UInt32.toInt32, Int32.toInt, BitVec.toInt_eq_toNat_bmod]; rfl

theorem toInt_toInt16 (x : UInt16) : x.toInt16.toInt = (x.toNat : Int).bmod (2 ^ 16) := by
  simp [UInt16.toInt16, Int16.toInt, BitVec.toInt_eq_toNat_bmod]; rfl

theorem toInt_toInt8 (x : UInt8) : x.toInt8.toInt = (x.toNat : Int).bmod (2 ^ 8) := by
  simp [UInt8.toInt8, Int8.toInt, BitVec.toInt_eq_toNat_bmod]; rfl

theorem s24_bits : ∀ a : UInt8,
    ((a.toInt8.toInt32 <<< 16) &&& (0x00ff0000 : Int32)).toUInt32 = a.toUInt32 <<< 16 ∧
    ((a.toInt8.toInt32 <<< 8) &&& (0x0000ff00 : Int32)).toUInt32 = a.toUInt32 <<< 8 ∧
    (a.toInt8.toInt32 &&& (0x000000ff : Int32)).toUInt32 = a.toUInt32 := by decide +kernel

theorem int32_of_bits {x : Int32} {u : UInt32} (h : x.toUInt32 = u) : x = u.toInt32 := by
  subst h; simp

/-- Three octets are read as if a zero octet preceded them. -/
theorem parses_signed24 (a b c : UInt8) :
    Parses signed24 [a, b, c] (rd32 0 a b c).toInt32 := by
  unfold signed24
  have hs : [a, b, c] = [a] ++ ([b] ++ [c]) := rfl
  rw [hs]
  refine Parses.bind (parses_u8 a) (Parses.bind (parses_u8 b) (Parses.bind' (parses_u8 c) ?_))
  convert Parses.pure _ using 1
  symm
  apply int32_of_bits
  simp only [Int32.toUInt32_or, (s24_bits a).1, (s24_bits b).2.1, (s24_bits c).2.2]
  unfold rd32
  simp only [show (0 : UInt8).toUInt32 <<< 24 = 0 by decide, UInt32.or_zero]
  rw [UInt32.or_comm, UInt32.or_comm (a.toUInt32 <<< 16), ← UInt32.or_assoc]

theorem parses_signed1 (a : UInt8) : Parses (signed 1) [a] a.toInt8.toInt32 :=
  Parses.bind' (parses_u8 a) (Parses.pure _)

theorem parses_signed2 (a b : UInt8) : Parses (signed 2) [a, b] (rd16 a b).toInt16.toInt32 :=
  Parses.bind' (parses_u16 a b) (Parses.pure _)

theorem parses_signed4 (a b c d : UInt8) : Parses (signed 4) [a, b, c, d] (rd32 a b c d).toInt32 :=
  Parses.bind' (parses_u32 a b c d) (Parses.pure _)

end Dec

end Bac
