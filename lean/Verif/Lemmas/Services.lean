import Verif.Model.Services
import Verif.Spec.Services
import Verif.Lemmas.Messages
import Verif.Lemmas.Failure
import Verif.Lemmas.Values
/-!
# Lemmas about the service encoders and decoders
-/

namespace Bac

namespace Enc

theorem apdu_request (e : Enc) (service invoke : UInt8) :
    (e.apdu (requestHeader service invoke)).1 = e.write (Spec.request invoke service) := by
  have h : encodeMaxSegsMaxApdu 0 1476 = 0x05 := by decide
  simp only [requestHeader, apdu, apduMeta, apduConfirmed, maxSegsMaxApdu, h]
  rw [if_neg (by decide), if_neg (by decide), if_pos trivial]
  simp only [Bool.false_eq_true, if_false, write_write]
  rfl

theorem apdu_complexAck (e : Enc) (service invoke : UInt8) :
    (e.apdu { dataType := 0x30, service := service, maxSegs := 0, maxApdu := 1476,
              invokeId := invoke }).1 = e.write (Spec.complexAckHeader invoke service) := by
  simp only [apdu, apduMeta]
  rw [if_pos trivial]
  simp only [write_write]
  rfl

/-- Every call of `AppData` is one of: write fixed octets, refuse, panic. -/
theorem appData_cases (v : Value) (f : Bool) :
    (∃ bs, ∀ e : Enc, e.appData v f = .ok (none, e.write bs)) ∨
    (∀ e : Enc, e.appData v f = .ok (some .unknownType, { e with err := some .unknownType })) ∨
    (∀ e : Enc, e.appData v f = .panic .typeAssertion) := by
  cases v with
  | many l =>
    cases f
    · exact Or.inr (Or.inl fun e => rfl)
    · exact Or.inr (Or.inr fun e => rfl)
  | one s =>
    cases f
    · cases s
      case null => exact Or.inl ⟨_, fun e => appData_null e false⟩
      case bool b => exact Or.inl ⟨_, fun e => appData_bool e b⟩
      case uint x => exact Or.inl ⟨_, fun e => appData_uint e x⟩
      case int x => exact Or.inl ⟨_, fun e => appData_int e x⟩
      case real x => exact Or.inl ⟨_, fun e => appData_real e x⟩
      case double x => exact Or.inl ⟨_, fun e => appData_double e x⟩
      case enum x => exact Or.inl ⟨_, fun e => appData_enum e x⟩
      case objId x => exact Or.inl ⟨_, fun e => appData_objId e x⟩
      case str x =>
        refine Or.inl ⟨Spec.tagHeader 7 false (UInt32.ofNat (x.length + 1)).toNat ++ ([0] ++ x),
          fun e => ?_⟩
        simp only [appData, Bool.false_eq_true, if_false, string]
        rw [tag_eq, write_write, write_write]
        rfl
      all_goals exact Or.inr (Or.inl fun e => rfl)
    · cases s
      case null => exact Or.inl ⟨_, fun e => appData_null e true⟩
      case uint x => exact Or.inl ⟨_, fun e => appData_uint_enum e x⟩
      all_goals exact Or.inr (Or.inr fun e => rfl)

/-- What is written for a value does not depend on what was written before. -/
theorem appData_any {v : Value} {f : Bool} {bs : List UInt8}
    (h : Enc.new.appData v f = .ok (none, ⟨bs, none⟩)) (e : Enc) :
    e.appData v f = .ok (none, e.write bs) := by
  rcases appData_cases v f with ⟨bs', h'⟩ | h' | h'
  · have := (h' Enc.new).symm.trans h
    simp only [Enc.new, Enc.write, List.nil_append, Outcome.ok.injEq, Prod.mk.injEq, true_and,
      Enc.mk.injEq, and_true] at this
    rw [h' e, this]
  · have := (h' Enc.new).symm.trans h
    simp at this
  · have := (h' Enc.new).symm.trans h
    simp at this

theorem appData'_any {v : Value} {f : Bool} {bs : List UInt8}
    (h : Enc.new.appData v f = .ok (none, ⟨bs, none⟩)) (e : Enc) :
    e.appData' v f = .ok (e.write bs) := by
  unfold appData'
  rw [appData_any h e]
  rfl

theorem new_write (bs : List UInt8) : Enc.new.write bs = ⟨bs, none⟩ := by
  simp [Enc.new, Enc.write]

end Enc

/-- Stepping through one operation of a decoder. -/
theorem D.run_bind {α β : Type} {m : D α} {f : α → D β} {d d1 : Dec} {a : α}
    (h : m d = .ok (a, d1)) : (m >>= f) d = f a d1 := by
  rw [D.bind_apply, h]; rfl

/-- Running a decoder on exactly the octets it expects. -/
theorem Parses.run {α : Type} {m : D α} {bs : List UInt8} {a : α} (h : Parses m bs a) :
    m (Dec.new bs) = .ok (a, ⟨[], lastOr none bs, none⟩) := by
  have := h none []
  rw [List.append_nil] at this
  exact this

theorem Dec.len_run (d : Dec) : Dec.len d = .ok (d.buf.length, d) := rfl

theorem Dec.error_run (d : Dec) : Dec.error d = .ok (d.err, d) := rfl

/-- A context-tagged unsigned value: header. -/
theorem Dec.parses_ctxUnsigned_header (num : UInt8) (v : UInt32) :
    Parses Dec.tagNumberAndValue (Spec.tagHeader num.toNat true (Spec.minOctets v.toNat))
      (num, tagByte (Spec.numNibble num.toNat) true (Spec.lenBits (Spec.minOctets v.toNat)),
        UInt32.ofNat (Spec.minOctets v.toNat)) := by
  have h1 := Dec.parses_tagHeader num true (UInt32.ofNat (Spec.minOctets v.toNat))
  rwa [Enc.ofNat_minOctets_toNat] at h1

theorem Dec.parses_unsigned' (v : UInt32) :
    Parses (Dec.unsigned (UInt32.ofNat (Spec.minOctets v.toNat)).toNat)
      (Spec.unsignedOctets v.toNat) v := by
  rw [Enc.ofNat_minOctets_toNat]; exact Dec.parses_unsigned v

/-- The header of a primitive with at most four contents octets, read in two steps. -/
theorem Dec.parses_tagNumber_small (num : UInt8) (ctx : Bool) (k : Nat) (hk : k ≤ 4) :
    Parses Dec.tagNumber (Spec.tagHeader num.toNat ctx k)
      (num, tagByte (Spec.numNibble num.toNat) ctx k) := by
  have h := Dec.parses_tagNumber_header num ctx k (by omega)
  have e1 : Spec.lenBits k = k := by unfold Spec.lenBits; rw [if_pos hk]
  have e2 : Spec.lenExt k = [] := by unfold Spec.lenExt; rw [if_pos hk]
  unfold Spec.tagHeader
  rw [e1, e2, List.append_nil]
  exact h

theorem Dec.parses_value_small (num : UInt8) (ctx : Bool) (k : Nat) (hk : k ≤ 4) :
    Parses (Dec.value (tagByte (Spec.numNibble num.toNat) ctx k)) [] (UInt32.ofNat k) := by
  have hn : (UInt32.ofNat k).toNat = k :=
    UInt32.toNat_ofNat_of_lt' (lt_of_le_of_lt hk (by norm_num))
  have h := Dec.parses_value (Spec.numNibble num.toNat) (Spec_numNibble_lt _) ctx (UInt32.ofNat k)
  rw [hn] at h
  have e1 : Spec.lenBits k = k := by unfold Spec.lenBits; rw [if_pos hk]
  have e2 : Spec.lenExt k = [] := by unfold Spec.lenExt; rw [if_pos hk]
  rw [e1, e2] at h
  exact h

theorem tagByte_context (num : UInt8) (ctx : Bool) (k : Nat) (hk : k ≤ 4) :
    isContextSpecific (tagByte (Spec.numNibble num.toNat) ctx k) = ctx ∧
    isClosing (tagByte (Spec.numNibble num.toNat) ctx k) = false ∧
    isOpening (tagByte (Spec.numNibble num.toNat) ctx k) = false := by
  obtain ⟨_, _, h3, h4, h5, _⟩ := tagByte_facts ⟨_, Spec_numNibble_lt num.toNat⟩ ctx
    ⟨k, show k < 6 by omega⟩
  exact ⟨h5, h4, h3⟩

theorem Dec.parses_objectId' (id : ObjectID) (h : id.typ.toNat < 2 ^ 10 ∧ id.inst.toNat < 2 ^ 22) :
    Parses Dec.objectId (Spec.objectId id.typ.toNat id.inst.toNat) id := by
  have := Dec.parses_objectId id.typ.toNat id.inst.toNat h.1 h.2
  simpa using this

theorem Enc.optIndex_eq (e : Enc) (tag : UInt8) (idx : UInt32) :
    e.optIndex tag idx = e.write (if idx = arrayAll then [] else
      Spec.ctxUnsigned tag.toNat idx.toNat) := by
  unfold Enc.optIndex
  by_cases h : idx = arrayAll
  · simp [h]
  · rw [if_pos h, if_neg h, Enc.contextUnsigned_eq]

theorem Enc.propRef_eq (e : Enc) (t1 t2 : UInt8) (p : Property) :
    (e.contextEnumerated t1 p.typ).optIndex t2 p.arrayIndex
      = e.write (p.ref.octets t1.toNat t2.toNat) := by
  rw [Enc.optIndex_eq]
  have hr : p.ref = ⟨p.typ.toNat,
    if p.arrayIndex = arrayAll then none else some p.arrayIndex.toNat⟩ := rfl
  unfold Enc.contextEnumerated Spec.PropRef.octets
  rw [hr]
  rw [Enc.contextUnsigned_eq, Enc.write_write]
  by_cases h : p.arrayIndex = arrayAll <;> simp [h]

/-- The header of ReadProperty and WriteProperty for a valid object and property. -/
theorem Enc.readPropertyHeader_ok (e : Enc) (o : Object) (p : Property) (more : List Property)
    (hid : o.id.typ.toNat < 2 ^ 10 ∧ o.id.inst.toNat < 2 ^ 22) (hp : o.properties = p :: more)
    (hpt : p.typ.toNat ≤ 4194303) :
    e.readPropertyHeader 0 o = .ok (e.write (Spec.ctxObjectId 0 o.id.typ.toNat o.id.inst.toNat ++
      p.ref.octets 1 2), 3, none) := by
  have h1 : isValidObjectType o.id.typ = none := by
    unfold isValidObjectType
    rw [if_neg]
    rw [gt_iff_lt, UInt32.lt_iff_toNat_lt]
    simp only [maxObject, UInt16.toNat_toUInt32]
    have : (0x3FF : UInt32).toNat = 1023 := rfl
    omega
  have h2 : isValidPropertyType p.typ = none := by
    unfold isValidPropertyType
    rw [if_neg]
    rw [gt_iff_lt, UInt32.lt_iff_toNat_lt]
    have : maxPropertyID.toNat = 4194303 := rfl
    omega
  unfold Enc.readPropertyHeader
  rw [h1, hp]
  simp only [h2, Enc.contextObjectID_eq, Nat.mod_eq_of_lt hid.1, Nat.mod_eq_of_lt hid.2]
  rw [Enc.propRef_eq, Enc.write_write]
  rfl

/-- Decoding up to the property identifier. -/
theorem Dec.readProperty_head (fuel : Nat) (id : ObjectID) (typ : UInt32) (rest : List UInt8)
    (hid : id.typ.toNat < 2 ^ 10 ∧ id.inst.toNat < 2 ^ 22) (p0 : Option UInt8) :
    ∃ q m, Dec.readProperty fuel ⟨Spec.ctxObjectId 0 id.typ.toNat id.inst.toNat ++
        (Spec.ctxUnsigned 1 typ.toNat ++ rest), p0, none⟩
      = Dec.readPropertyTail fuel id typ 1 m ⟨rest, q, none⟩ := by
  have hmin := minOctets_le4 typ.toNat
  have hpos : 1 ≤ Spec.minOctets typ.toNat := by unfold Spec.minOctets; split_ifs <;> omega
  refine ⟨lastOr (lastOr (lastOr (lastOr (lastOr p0 (Spec.tagHeader 0 true 4))
    (Spec.objectId id.typ.toNat id.inst.toNat)) (Spec.tagHeader 1 true (Spec.minOctets typ.toNat)))
    []) (Spec.unsignedOctets typ.toNat), tagByte (Spec.numNibble 1) true (Spec.minOctets typ.toNat), ?_⟩
  have hlen : ¬ (Spec.ctxObjectId 0 id.typ.toNat id.inst.toNat ++
        (Spec.ctxUnsigned 1 typ.toNat ++ rest)).length < 7 := by
    simp only [Spec.ctxObjectId, Spec.ctxUnsigned, Spec.tagHeader, Spec.objectId,
      Spec.unsignedOctets, List.length_append, length_bigEndian, List.length_singleton]
    omega
  unfold Dec.readProperty
  rw [D.run_bind (Dec.len_run _), if_neg hlen]
  unfold Spec.ctxObjectId Spec.ctxUnsigned
  simp only [List.append_assoc]
  have hc : isContextSpecific (tagByte (Spec.numNibble 0) true 4) = true :=
    (tagByte_context 0 true 4 (le_refl _)).1
  have t0 : Parses Dec.tagNumber (Spec.tagHeader 0 true 4) (0, tagByte (Spec.numNibble 0) true 4) :=
    Dec.parses_tagNumber_small 0 true 4 (le_refl _)
  have t1 : Parses Dec.tagNumber (Spec.tagHeader 1 true (Spec.minOctets typ.toNat))
      (1, tagByte (Spec.numNibble 1) true (Spec.minOctets typ.toNat)) :=
    Dec.parses_tagNumber_small 1 true _ hmin
  have v1 : ∀ p r, Dec.value (tagByte (Spec.numNibble 1) true (Spec.minOctets typ.toNat))
      ⟨r, p, none⟩ = .ok (UInt32.ofNat (Spec.minOctets typ.toNat), ⟨r, lastOr p [], none⟩) :=
    Dec.parses_value_small 1 true _ hmin
  rw [D.run_bind (t0 p0 _)]
  dsimp only
  rw [if_neg (by decide), if_neg (by rw [hc]; decide)]
  rw [D.run_bind (Dec.parses_objectId' id hid _ _)]
  rw [D.run_bind (t1 _ _)]
  dsimp only
  rw [if_neg (by decide)]
  rw [D.run_bind (v1 _ _)]
  have hu : Parses (Dec.enumerated (UInt32.ofNat (Spec.minOctets typ.toNat)).toNat)
      (Spec.unsignedOctets typ.toNat) typ := Dec.parses_unsigned' typ
  rw [D.run_bind (hu _ _)]

/-- `m` never runs forever. -/
def NoDiv {α : Type} (m : D α) : Prop := ∀ d, m d ≠ .diverge

theorem Total.noDiv {α : Type} {m : D α} (h : Total m) : NoDiv m := by
  intro d
  obtain ⟨a, d', e⟩ := h d
  rw [e]; simp

theorem NoDiv.pure {α : Type} (a : α) : NoDiv (pure a : D α) := (Total.pure a).noDiv

theorem NoDiv.bind {α β : Type} {m : D α} {f : α → D β} (h1 : NoDiv m) (h2 : ∀ a, NoDiv (f a)) :
    NoDiv (m >>= f) := by
  intro d
  rw [D.bind_apply]
  cases h : m d with
  | ok p => exact h2 p.1 p.2
  | panic k => simp [Outcome.bind]
  | diverge => exact absurd h (h1 d)

theorem NoDiv.ite {α : Type} {c : Prop} [Decidable c] {m1 m2 : D α} (h1 : NoDiv m1)
    (h2 : NoDiv m2) : NoDiv (if c then m1 else m2) := by
  split <;> assumption

/-- `m` does not lengthen the input. -/
def Shrinks {α : Type} (m : D α) : Prop :=
  ∀ d a d', m d = .ok (a, d') → d'.buf.length ≤ d.buf.length

theorem Shrinks.pure {α : Type} (a : α) : Shrinks (pure a : D α) := by
  intro d b d' h; cases h; exact le_refl _

theorem Shrinks.bind {α β : Type} {m : D α} {f : α → D β} (h1 : Shrinks m)
    (h2 : ∀ a, Shrinks (f a)) : Shrinks (m >>= f) := by
  intro d b d' h
  obtain ⟨a, d1, e1, e2⟩ := D.bind_inv h
  exact le_trans (h2 a _ _ _ e2) (h1 _ _ _ e1)

theorem Shrinks.ite {α : Type} {c : Prop} [Decidable c] {m1 m2 : D α} (h1 : Shrinks m1)
    (h2 : Shrinks m2) : Shrinks (if c then m1 else m2) := by
  split <;> assumption

theorem Shrinks.panic {α : Type} (k : PanicKind) : Shrinks (D.panic k : D α) := by
  intro d b d' h; cases h

theorem Shrinks.lift {α : Type} (x : Outcome α) : Shrinks (D.lift x) := by
  intro d b d' h
  obtain ⟨a, _, h2⟩ := ok_bind_inv h
  cases h2; exact le_refl _

namespace Dec

theorem shrinks_error : Shrinks error := by intro d a d' h; cases h; exact le_refl _
theorem shrinks_len : Shrinks len := by intro d a d' h; cases h; exact le_refl _

theorem shrinks_readN (n : Nat) : Shrinks (readN n) := by
  intro d a d' h
  unfold readN at h
  split at h
  · cases h; exact le_refl _
  · split_ifs at h <;> cases h <;> simp

theorem shrinks_rawRead (n : Nat) : Shrinks (rawRead n) := by
  intro d a d' h
  unfold rawRead at h
  split_ifs at h <;> cases h <;> simp

theorem shrinks_rawReadErr (n : Nat) : Shrinks (rawReadErr n) := by
  intro d a d' h
  unfold rawReadErr at h
  split_ifs at h <;> cases h <;> simp

theorem shrinks_u8 : Shrinks u8 := (shrinks_readN 1).bind fun r => by
  split <;> exact Shrinks.pure _
theorem shrinks_u16 : Shrinks u16 := (shrinks_readN 2).bind fun r => by
  split <;> exact Shrinks.pure _
theorem shrinks_u32 : Shrinks u32 := (shrinks_readN 4).bind fun r => by
  split <;> exact Shrinks.pure _
theorem shrinks_u64 : Shrinks u64 := (shrinks_readN 8).bind fun r => by
  split <;> exact Shrinks.pure _
theorem shrinks_bytes (n : Nat) : Shrinks (bytes n) := (shrinks_readN n).bind fun r => by
  split <;> exact Shrinks.pure _

theorem shrinks_unsigned24 : Shrinks unsigned24 :=
  shrinks_u8.bind fun _ => shrinks_u8.bind fun _ => shrinks_u8.bind fun _ => Shrinks.pure _

theorem shrinks_signed24 : Shrinks signed24 :=
  shrinks_u8.bind fun _ => shrinks_u8.bind fun _ => shrinks_u8.bind fun _ => Shrinks.pure _

theorem shrinks_unsigned (n : Nat) : Shrinks (unsigned n) := by
  unfold unsigned
  split
  · exact shrinks_u8.bind fun _ => Shrinks.pure _
  · exact shrinks_u16.bind fun _ => Shrinks.pure _
  · exact shrinks_unsigned24
  · exact shrinks_u32
  · exact Shrinks.pure _

theorem shrinks_signed (n : Nat) : Shrinks (signed n) := by
  unfold signed
  split
  · exact shrinks_u8.bind fun _ => Shrinks.pure _
  · exact shrinks_u16.bind fun _ => Shrinks.pure _
  · exact shrinks_signed24
  · exact shrinks_u32.bind fun _ => Shrinks.pure _
  · exact Shrinks.pure _

theorem shrinks_objectId : Shrinks objectId := shrinks_u32.bind fun _ => Shrinks.pure _

theorem shrinks_tagNumber : Shrinks tagNumber :=
  shrinks_u8.bind fun _ => Shrinks.ite (shrinks_u8.bind fun _ => Shrinks.pure _) (Shrinks.pure _)

theorem shrinks_value (m : UInt8) : Shrinks (value m) := by
  unfold value
  refine Shrinks.ite (shrinks_u8.bind fun v => Shrinks.ite shrinks_u32
    (Shrinks.ite ?_ (Shrinks.pure _))) (Shrinks.ite (Shrinks.pure _) (Shrinks.pure _))
  exact shrinks_u16.bind fun _ => Shrinks.pure _

theorem shrinks_tagNumberAndValue : Shrinks tagNumberAndValue :=
  shrinks_tagNumber.bind fun _ => (shrinks_value _).bind fun _ => Shrinks.pure _

theorem shrinks_bitString (n : Nat) : Shrinks (bitString n) := by
  unfold bitString
  exact Shrinks.ite (Shrinks.pure _) ((shrinks_bytes n).bind fun _ =>
    (Shrinks.lift _).bind fun _ => Shrinks.pure _)

theorem shrinks_string (n : Int) : Shrinks (string n) := by
  unfold string
  exact shrinks_u8.bind fun _ => Shrinks.ite (Shrinks.ite (Shrinks.panic _)
    ((shrinks_bytes _).bind fun _ => shrinks_error.bind fun _ => Shrinks.pure _)) (Shrinks.pure _)

theorem shrinks_date (dt : Date) (n : Nat) : Shrinks (date dt n) := by
  unfold date
  refine Shrinks.ite (Shrinks.pure _) ((shrinks_rawRead n).bind fun _ => shrinks_error.bind fun _ =>
    Shrinks.ite (Shrinks.pure _) ?_)
  split <;> exact Shrinks.pure _

theorem shrinks_time (t : Time) (n : Nat) : Shrinks (time t n) := by
  unfold time
  refine Shrinks.ite (Shrinks.pure _) ((shrinks_rawRead n).bind fun _ => shrinks_error.bind fun _ =>
    Shrinks.ite (Shrinks.pure _) ?_)
  split
  · exact Shrinks.pure _
  · exact Shrinks.panic _

theorem shrinks_appDataOfTag (tag : UInt8) (len : Nat) : Shrinks (appDataOfTag tag len) := by
  have key : ∀ {α : Type} (m : D α) (f : α → Scalar), Shrinks m →
      Shrinks (m >>= fun v => error >>= fun e => (pure (f v, e) : D (Scalar × Option GoErr))) :=
    fun m f h => h.bind fun _ => shrinks_error.bind fun _ => Shrinks.pure _
  unfold appDataOfTag
  split
  · exact Shrinks.pure _
  · exact shrinks_error.bind fun _ => Shrinks.pure _
  · exact key _ .uint (shrinks_unsigned len)
  · exact key _ .int (shrinks_signed len)
  · exact key _ .real shrinks_u32
  · exact key _ .double shrinks_u64
  · exact key _ .octets (shrinks_bytes len)
  · exact (shrinks_string _).bind fun _ => Shrinks.pure _
  · exact key _ .bits (shrinks_bitString len)
  · exact key _ .uint (shrinks_unsigned len)
  · exact key _ .date (shrinks_date _ len)
  · exact key _ .time (shrinks_time _ len)
  · exact key _ .objId shrinks_objectId
  · exact Shrinks.pure _

theorem shrinks_appData : Shrinks appData :=
  shrinks_tagNumberAndValue.bind fun _ => shrinks_appDataOfTag _ _

/-- Reading one octet of a non-empty input without recorded error shortens it. -/
theorem u8_progress (d : Dec) (he : d.err = none) (hb : d.buf ≠ []) :
    ∃ a d', u8 d = .ok (a, d') ∧ d'.buf.length < d.buf.length := by
  rcases d with ⟨buf, prev, err⟩
  simp only at he hb
  subst he
  cases buf with
  | nil => exact absurd rfl hb
  | cons b rest => exact ⟨b, ⟨rest, some b, none⟩, rfl, by simp⟩

theorem tagNumber_progress (d d' : Dec) (r) (he : d.err = none) (hb : d.buf ≠ [])
    (h : tagNumber d = .ok (r, d')) : d'.buf.length < d.buf.length := by
  obtain ⟨a, d1, h1, h2⟩ := D.bind_inv h
  obtain ⟨a', d1', h3, h4⟩ := u8_progress d he hb
  rw [h3] at h1
  cases h1
  have : Shrinks (if isExtendedTagNumber a = true then (u8 >>= fun tag => pure (tag, a))
      else (pure (a >>> 4, a) : D (UInt8 × UInt8))) :=
    Shrinks.ite (shrinks_u8.bind fun _ => Shrinks.pure _) (Shrinks.pure _)
  exact lt_of_le_of_lt (this _ _ _ h2) h4

theorem appData_progress (d d' : Dec) (r) (he : d.err = none) (hb : d.buf ≠ [])
    (h : appData d = .ok (r, d')) : d'.buf.length < d.buf.length := by
  obtain ⟨a, d1, h1, h2⟩ := D.bind_inv h
  obtain ⟨b, d2, h3, h4⟩ := D.bind_inv h1
  have hp := tagNumber_progress _ _ _ he hb h3
  have hs : Shrinks (value b.2 >>= fun v => (pure (b.1, b.2, v) : D (UInt8 × UInt8 × UInt32))) :=
    (shrinks_value _).bind fun _ => Shrinks.pure _
  have := hs _ _ _ h4
  have := shrinks_appDataOfTag _ _ _ _ _ h2
  omega

theorem noDiv_string (n : Int) : NoDiv (string n) := by
  unfold string
  refine u8_all.1.noDiv.bind fun _ => NoDiv.ite (NoDiv.ite ?_ ?_) (NoDiv.pure _)
  · intro d; simp [D.panic]
  · exact (bytes_all _).1.noDiv.bind fun _ => error_all.1.noDiv.bind fun _ => NoDiv.pure _

theorem noDiv_time (t : Time) (n : Nat) : NoDiv (time t n) := by
  unfold time
  refine NoDiv.ite (NoDiv.pure _) ((total_rawRead n).noDiv.bind fun _ =>
    error_all.1.noDiv.bind fun _ => NoDiv.ite (NoDiv.pure _) ?_)
  split
  · exact NoDiv.pure _
  · intro d; simp [D.panic]

theorem noDiv_appDataOfTag (tag : UInt8) (len : Nat) : NoDiv (appDataOfTag tag len) := by
  by_cases h7 : tag = 7
  · subst h7
    exact (noDiv_string _).bind fun _ => NoDiv.pure _
  by_cases h11 : tag = 11
  · subst h11
    exact (noDiv_time _ _).bind fun _ => error_all.1.noDiv.bind fun _ => NoDiv.pure _
  exact (appDataOfTag_total tag len h7 h11).noDiv

theorem noDiv_appData : NoDiv appData :=
  tagNumberAndValue_total.1.noDiv.bind fun _ => noDiv_appDataOfTag _ _

/-- A successfully read application value has at least one octet. -/
theorem parses_appData_ne {bs : List UInt8} {r} (h : Parses appData bs r) : bs ≠ [] := by
  rintro rfl
  have h' := h none []
  have e : appData ⟨[] ++ [], none, none⟩ = .ok ((.null, none), ⟨[], none, some .eof⟩) := by
    decide +kernel
  rw [e] at h'
  simp at h'

/-- The value loop of ReadProperty on well-formed values followed by one octet. -/
theorem readPropertyValues_run (l : List (List UInt8 × Scalar))
    (h : ∀ x ∈ l, Parses appData x.1 (x.2, none)) (fuel : Nat) (hf : l.length < fuel)
    (acc : List Scalar) (p : Option UInt8) (c : UInt8) :
    ∃ q, readPropertyValues fuel acc ⟨l.flatMap Prod.fst ++ [c], p, none⟩
      = .ok ((acc ++ l.map Prod.snd, none), ⟨[c], q, none⟩) := by
  induction l generalizing fuel acc p with
  | nil =>
    refine ⟨p, ?_⟩
    cases fuel with
    | zero => simp at hf
    | succ n =>
      unfold readPropertyValues
      rw [D.run_bind (len_run _), if_neg (by simp)]
      simp [D.pure_apply]
  | cons x l ih =>
    cases fuel with
    | zero => simp at hf
    | succ n =>
      have hx := h x (by simp)
      have hne := List.length_pos_iff.mpr (parses_appData_ne hx)
      obtain ⟨q, hq⟩ := ih (fun y hy => h y (by simp [hy])) n (by simp at hf; omega)
        (acc ++ [x.2]) (lastOr p x.1)
      refine ⟨q, ?_⟩
      unfold readPropertyValues
      rw [D.run_bind (len_run _), if_pos (by simp; omega), List.flatMap_cons, List.append_assoc,
        D.run_bind (hx _ _)]
      simp only [Option.isSome_none, Bool.false_eq_true, if_false]
      rw [hq]
      simp

/-- The rest of a ReadProperty answer: index (if any), opening tag 3, values, one octet. -/
theorem readPropertyTail_values (fuel : Nat) (id : ObjectID) (typ idx : UInt32) (m c : UInt8)
    (l : List (List UInt8 × Scalar)) (h : ∀ x ∈ l, Parses appData x.1 (x.2, none))
    (hf : l.length < fuel) (p : Option UInt8) :
    ∃ q, readPropertyTail fuel id typ 1 m
        ⟨(if idx = arrayAll then [] else Spec.ctxUnsigned 2 idx.toNat) ++ (Spec.openTag 3 ++
          (l.flatMap Prod.fst ++ [c])), p, none⟩
      = .ok (({ object := { id := id, properties :=
          [{ typ := typ, arrayIndex := idx, data := unlist (l.map Prod.snd) }] } }, none),
          ⟨[c], q, none⟩) := by
  have o3 : Parses tagNumber (Spec.openTag 3) (3, 0x3E) := parses_tagNumber_open 3
  have v3 : ∀ p r, value 0x3E ⟨r, p, none⟩ = .ok (0, ⟨r, lastOr p [], none⟩) :=
    parses_value_open 3
  unfold readPropertyTail
  rw [D.run_bind (len_run _)]
  by_cases hi : idx = arrayAll
  · subst hi
    simp only [if_true, List.nil_append]
    have hn : (Spec.openTag 3 ++ (l.flatMap Prod.fst ++ [c])).length ≠ 0 := by simp
    simp only [hn, ne_eq, not_false_eq_true, decide_true, optTagNumber, if_true]
    rw [D.run_bind (o3 _ _)]
    dsimp only
    rw [D.run_bind (len_run _), if_pos (Or.inl (by simp))]
    have hidx : ∀ p r, readPropertyIndex 3 0x3E ⟨r, p, none⟩
        = .ok ((arrayAll, 3), ⟨r, lastOr p [], none⟩) := by
      intro p r
      unfold readPropertyIndex
      rw [D.run_bind (v3 _ _), if_neg (by decide)]
      rfl
    rw [D.run_bind (hidx _ _)]
    dsimp only
    rw [if_pos rfl]
    obtain ⟨q, hq⟩ := readPropertyValues_run l h fuel hf [] (lastOr (lastOr p (Spec.openTag 3)) []) c
    refine ⟨q, ?_⟩
    rw [D.run_bind hq]
    rfl
  · simp only [hi, if_false]
    have hmin := minOctets_le4 idx.toNat
    have hpos : 1 ≤ Spec.minOctets idx.toNat := by unfold Spec.minOctets; split_ifs <;> omega
    have hn : (Spec.ctxUnsigned 2 idx.toNat ++ (Spec.openTag 3 ++ (l.flatMap Prod.fst ++ [c]))).length
        ≠ 0 := by simp
    simp only [hn, ne_eq, not_false_eq_true, decide_true, optTagNumber, if_true]
    have t2 : Parses tagNumber (Spec.tagHeader 2 true (Spec.minOctets idx.toNat))
        (2, tagByte (Spec.numNibble 2) true (Spec.minOctets idx.toNat)) :=
      parses_tagNumber_small 2 true _ hmin
    have v2 : ∀ p r, value (tagByte (Spec.numNibble 2) true (Spec.minOctets idx.toNat))
        ⟨r, p, none⟩ = .ok (UInt32.ofNat (Spec.minOctets idx.toNat), ⟨r, lastOr p [], none⟩) :=
      parses_value_small 2 true _ hmin
    unfold Spec.ctxUnsigned
    rw [List.append_assoc, D.run_bind (t2 _ _)]
    dsimp only
    rw [D.run_bind (len_run _), if_pos (Or.inr (by decide))]
    have hidx : ∀ p r, readPropertyIndex 2 (tagByte (Spec.numNibble 2) true
          (Spec.minOctets idx.toNat)) ⟨Spec.unsignedOctets idx.toNat ++ (Spec.openTag 3 ++ r), p, none⟩
        = .ok ((idx, 3), ⟨r, lastOr (lastOr (lastOr p []) (Spec.unsignedOctets idx.toNat))
            (Spec.openTag 3), none⟩) := by
      intro p r
      unfold readPropertyIndex
      rw [D.run_bind (v2 _ _), if_pos rfl, D.run_bind (parses_unsigned' idx _ _),
        D.run_bind (len_run _), if_pos (by simp [Spec.openTag]), D.run_bind (o3 _ _)]
      rfl
    rw [D.run_bind (hidx _ _)]
    dsimp only
    rw [if_pos rfl]
    obtain ⟨q, hq⟩ := readPropertyValues_run l h fuel hf [] (lastOr (lastOr (lastOr
      (lastOr p (Spec.tagHeader 2 true (Spec.minOctets idx.toNat))) [])
      (Spec.unsignedOctets idx.toNat)) (Spec.openTag 3)) c
    refine ⟨q, ?_⟩
    rw [D.run_bind hq]
    rfl

/-- The rest of a ReadProperty request: index (if any) and nothing else. -/
theorem readPropertyTail_request (fuel : Nat) (id : ObjectID) (typ idx : UInt32) (m : UInt8)
    (p : Option UInt8) :
    ∃ q, readPropertyTail fuel id typ 1 m
        ⟨if idx = arrayAll then [] else Spec.ctxUnsigned 2 idx.toNat, p, none⟩
      = .ok (({ object := { id := id, properties := [{ typ := typ, arrayIndex := idx }] } }, none),
          ⟨[], q, none⟩) := by
  unfold readPropertyTail
  rw [D.run_bind (len_run _)]
  by_cases hi : idx = arrayAll
  · subst hi
    exact ⟨p, rfl⟩
  · simp only [hi, if_false]
    have hmin := minOctets_le4 idx.toNat
    have hn : (Spec.ctxUnsigned 2 idx.toNat).length ≠ 0 := by
      simp [Spec.ctxUnsigned, Spec.tagHeader]
    simp only [hn, ne_eq, not_false_eq_true, decide_true, optTagNumber, if_true]
    have t2 : Parses tagNumber (Spec.tagHeader 2 true (Spec.minOctets idx.toNat))
        (2, tagByte (Spec.numNibble 2) true (Spec.minOctets idx.toNat)) :=
      parses_tagNumber_small 2 true _ hmin
    have v2 : ∀ p r, value (tagByte (Spec.numNibble 2) true (Spec.minOctets idx.toNat))
        ⟨r, p, none⟩ = .ok (UInt32.ofNat (Spec.minOctets idx.toNat), ⟨r, lastOr p [], none⟩) :=
      parses_value_small 2 true _ hmin
    have u2 := parses_unsigned' idx
    unfold Spec.ctxUnsigned
    rw [D.run_bind (t2 _ _)]
    dsimp only
    rw [D.run_bind (len_run _), if_pos (Or.inr (by decide))]
    have hidx : ∀ p, readPropertyIndex 2 (tagByte (Spec.numNibble 2) true
          (Spec.minOctets idx.toNat)) ⟨Spec.unsignedOctets idx.toNat, p, none⟩
        = .ok ((idx, 0), ⟨[], lastOr (lastOr p []) (Spec.unsignedOctets idx.toNat), none⟩) := by
      intro p
      have u2' := u2 (lastOr p []) []
      rw [List.append_nil] at u2'
      unfold readPropertyIndex
      rw [D.run_bind (v2 _ _), if_pos rfl, D.run_bind u2', D.run_bind (len_run _)]
      rfl
    rw [D.run_bind (hidx _)]
    dsimp only
    rw [if_neg (by decide)]
    exact ⟨_, rfl⟩

end Dec

end Bac
