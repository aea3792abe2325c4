import Verif.Lemmas.Services
import Verif.Props.Conforming
/-!
# C22 - C32: service requests and the ReadProperty acknowledgement
-/

namespace Bac.Props

open Spec (AppVal Means)

/-! ## C22 Who-Is -/

/-- C22 fails at the largest instance: the limits 4194303..4194303 are dropped and
every device on the network is asked. -/
theorem C22_fails : Enc.new.whoIs 4194303 4194303 = (⟨Spec.whoIs none, none⟩, none) ∧
    Enc.new.whoIs 0 4194303 = (⟨Spec.whoIs none, none⟩, none) := by decide +kernel

theorem int32_nonneg (x : Int32) (h : 0 ≤ x.toInt) :
    (x.toUInt32.toNat : Int) = x.toInt ∧ x.toUInt32.toInt32 = x := by
  refine ⟨?_, by simp⟩
  have h2 := Int32.toInt_lt x
  have : x.toUInt32.toNat = x.toBitVec.toNat := rfl
  have h3 : x.toInt = x.toBitVec.toInt := rfl
  rw [h3, BitVec.toInt_eq_toNat_cond] at h h2 ⊢
  rw [this]
  split_ifs at * <;> omega

theorem whoIs_cond (low high : Int32) :
    (low ≥ 0 ∧ high ≥ 0 ∧ low < 0x3FFFFF ∧ high < 0x3FFFFF) ↔
      (0 ≤ low.toInt ∧ low.toInt < 4194303 ∧ 0 ≤ high.toInt ∧ high.toInt < 4194303) := by
  have e : (0x3FFFFF : Int32).toInt = 4194303 := by decide
  have z : (0 : Int32).toInt = 0 := by decide
  simp only [ge_iff_le, Int32.le_iff_toInt_le, Int32.lt_iff_toInt_lt, e, z]
  tauto

/-- C22 for limits below 4194303: the exact octets, and the limits come back.
Missing: a limit equal to 4194303 (`C22_fails`). -/
theorem C22_limits_partial (low high : Int32) (hl : 0 ≤ low.toInt ∧ low.toInt < 4194303)
    (hh : 0 ≤ high.toInt ∧ high.toInt < 4194303) :
    ∃ body d, Enc.new.whoIs low high = (⟨Spec.unconfirmedHeader 8 ++ body, none⟩, none) ∧
      Spec.unconfirmedHeader 8 ++ body = Spec.whoIs (some (low.toInt.toNat, high.toInt.toNat)) ∧
      Dec.whoIs (Dec.new body) = .ok (((low, high), none), d) := by
  obtain ⟨l1, l2⟩ := int32_nonneg low hl.1
  obtain ⟨h1, h2⟩ := int32_nonneg high hh.1
  have el : low.toInt.toNat = low.toUInt32.toNat := by omega
  have eh : high.toInt.toNat = high.toUInt32.toNat := by omega
  refine ⟨Spec.ctxUnsigned 0 low.toUInt32.toNat ++ Spec.ctxUnsigned 1 high.toUInt32.toNat,
    ⟨[], lastOr none (Spec.ctxUnsigned 0 low.toUInt32.toNat ++
      Spec.ctxUnsigned 1 high.toUInt32.toNat), none⟩, ?_, ?_, ?_⟩
  · simp only [Enc.whoIs, if_pos ((whoIs_cond low high).2 ⟨hl.1, hl.2, hh.1, hh.2⟩),
      Enc.contextUnsigned_eq, Enc.write_write, Enc.new_write]
    rfl
  · rw [el, eh]; rfl
  · have hlen : (Dec.new (Spec.ctxUnsigned 0 low.toUInt32.toNat ++
        Spec.ctxUnsigned 1 high.toUInt32.toNat)).buf.length ≠ 0 := by
      simp [Dec.new, Spec.ctxUnsigned, Spec.tagHeader]
    unfold Dec.whoIs
    rw [D.run_bind (Dec.len_run _), if_neg hlen]
    refine Parses.run ?_
    unfold Spec.ctxUnsigned
    rw [List.append_assoc]
    refine Parses.bind (Dec.parses_ctxUnsigned_header 0 low.toUInt32) ?_
    dsimp only
    rw [if_neg (by decide)]
    refine Parses.bind (Dec.parses_unsigned' _) ?_
    refine Parses.bind (Dec.parses_ctxUnsigned_header 1 high.toUInt32) ?_
    dsimp only
    rw [if_neg (by decide)]
    refine Parses.bind' (Dec.parses_unsigned' _) ?_
    refine Parses.bind0 Dec.parses_error ?_
    rw [l2, h2]
    exact Parses.pure _

/-- C22 without (usable) limits: an unlimited Who-Is, which decodes as such. -/
theorem C22_unlimited (low high : Int32)
    (h : ¬ (0 ≤ low.toInt ∧ low.toInt < 4194303 ∧ 0 ≤ high.toInt ∧ high.toInt < 4194303)) :
    Enc.new.whoIs low high = (⟨Spec.whoIs none, none⟩, none) ∧
      Dec.whoIs (Dec.new []) = .ok (((-1, -1), none), Dec.new []) := by
  refine ⟨?_, rfl⟩
  simp only [Enc.whoIs, if_neg (fun c => h ((whoIs_cond low high).1 c)), Enc.new_write]
  rfl

example : Enc.new.whoIs 10 4194302
    = (⟨[0x10, 8, 0x09, 10, 0x1B, 0x3F, 0xFF, 0xFE], none⟩, none) := by decide +kernel

/-! ## C23 I-Am -/

/-- C23.  The octets are the standard's and the four fields come back. -/
theorem C23_iam (i : IAm) (h : C04_Valid i.id) :
    ∃ body d, Enc.new.iAm i = .ok (⟨Spec.unconfirmedHeader 0 ++ body, none⟩, none) ∧
      Spec.unconfirmedHeader 0 ++ body = Spec.iAm i.id.typ.toNat i.id.inst.toNat i.maxApdu.toNat
        i.segmentation.toNat i.vendor.toNat ∧
      Dec.iAm (Dec.new body) = .ok (({ i with addr := {} }, none), d) := by
  refine ⟨(AppVal.objId i.id.typ.toNat i.id.inst.toNat).encoding ++
    ((AppVal.unsigned i.maxApdu.toNat).encoding ++ ((AppVal.enum i.segmentation.toNat).encoding ++
      (AppVal.unsigned i.vendor.toNat).encoding)),
    ⟨[], lastOr none ((AppVal.objId i.id.typ.toNat i.id.inst.toNat).encoding ++
    ((AppVal.unsigned i.maxApdu.toNat).encoding ++ ((AppVal.enum i.segmentation.toNat).encoding ++
      (AppVal.unsigned i.vendor.toNat).encoding))), none⟩, ?_, ?_, ?_⟩
  · simp only [Enc.iAm, Enc.appData', Enc.appData_objId, Enc.appData_uint, Enc.appData_enum,
      Outcome.ok_bind, Outcome.pure_eq, Enc.write_write, Enc.new_write, Nat.mod_eq_of_lt h.1,
      Nat.mod_eq_of_lt h.2]
    simp only [Spec.unconfirmedHeader, List.append_assoc]
    rfl
  · simp only [Spec.iAm, List.append_assoc]
  · have p0 := Dec.parses_objId i.id.typ.toNat i.id.inst.toNat h.1 h.2
    have hid : (⟨UInt16.ofNat i.id.typ.toNat, UInt32.ofNat i.id.inst.toNat⟩ : ObjectID) = i.id := by
      simp
    rw [hid] at p0
    refine Parses.run ?_
    unfold Dec.iAm
    refine Parses.bind p0 ?_
    simp only [Option.isSome_none, Bool.false_eq_true, if_false]
    refine Parses.bind (Dec.parses_uint _) ?_
    refine Parses.bind (Dec.parses_enum _) ?_
    refine Parses.bind' (Dec.parses_uint _) ?_
    refine Parses.bind0 Dec.parses_error ?_
    exact Parses.pure _

example : C04_Valid (⟨8, 1234⟩ : ObjectID) ∧
    Enc.new.iAm { id := ⟨8, 1234⟩, maxApdu := 1476, segmentation := 3, vendor := 260 }
      = .ok (⟨[0x10, 0, 0xC4, 2, 0, 4, 0xD2, 0x22, 5, 0xC4, 0x91, 3, 0x22, 1, 4], none⟩, none) := by
  refine ⟨⟨by decide, by decide⟩, by decide +kernel⟩

/-! ## C24 ReadProperty request -/

theorem ref_octets (p : Property) (t1 t2 : Nat) :
    p.ref.octets t1 t2 = Spec.ctxUnsigned t1 p.typ.toNat ++
      (if p.arrayIndex = arrayAll then [] else Spec.ctxUnsigned t2 p.arrayIndex.toNat) := by
  have hr : p.ref = ⟨p.typ.toNat,
    if p.arrayIndex = arrayAll then none else some p.arrayIndex.toNat⟩ := rfl
  unfold Spec.PropRef.octets
  rw [hr]
  by_cases h : p.arrayIndex = arrayAll <;> simp [h]

/-- C24.  The request for a valid object and property is the standard's, octet for
octet, and its service part decodes to the same object, property and index. -/
theorem C24_request (invoke : UInt8) (data : PropertyData) (p : Property) (more : List Property)
    (hid : C04_Valid data.object.id) (hp : data.object.properties = p :: more)
    (hpt : p.typ.toNat ≤ 4194303) :
    ∃ body, Spec.readProperty invoke data.object.id.typ.toNat data.object.id.inst.toNat p.ref
        = Spec.request invoke 12 ++ body ∧
      Enc.new.readProperty invoke data = .ok (⟨Spec.request invoke 12 ++ body, none⟩, none) ∧
      ∀ fuel, ∃ d, Dec.readProperty fuel (Dec.new body)
        = .ok (({ object := { id := data.object.id,
                              properties := [{ typ := p.typ, arrayIndex := p.arrayIndex }] } },
                none), d) := by
  refine ⟨Spec.ctxObjectId 0 data.object.id.typ.toNat data.object.id.inst.toNat ++ p.ref.octets 1 2,
    by simp only [Spec.readProperty, List.append_assoc], ?_, ?_⟩
  · unfold Enc.readProperty
    simp only [Enc.apdu_request, Enc.readPropertyHeader_ok _ _ p more hid hp hpt, Outcome.ok_bind,
      Enc.write_write, Enc.new_write]
    rfl
  · rw [ref_octets]
    intro fuel
    obtain ⟨q, m, h⟩ := Dec.readProperty_head fuel data.object.id p.typ
      (if p.arrayIndex = arrayAll then [] else Spec.ctxUnsigned 2 p.arrayIndex.toNat) hid none
    obtain ⟨q', h'⟩ := Dec.readPropertyTail_request fuel data.object.id p.typ p.arrayIndex m q
    exact ⟨_, h.trans h'⟩

/-- Present-value of AnalogInput 5, element 7 of its priority array: hypotheses and octets. -/
example : C04_Valid ⟨0, 5⟩ ∧ (85 : UInt32).toNat ≤ 4194303 ∧
    Enc.new.readProperty 9 { object := { id := ⟨0, 5⟩, properties := [⟨87, 7, .one .nil, 0⟩] } }
      = .ok (⟨[0, 5, 9, 12, 0x0C, 0, 0, 0, 5, 0x19, 87, 0x29, 7], none⟩, none) := by
  exact ⟨⟨by decide, by decide⟩, by decide, by decide +kernel⟩

/-! ## C25 Invalid object types and properties -/

theorem validObjectType_none (t : UInt16) : isValidObjectType t = none ↔ t.toNat ≤ 1023 := by
  unfold isValidObjectType
  have : (0x3FF : UInt32).toNat = 1023 := rfl
  by_cases h : t.toUInt32 > maxObject
  · rw [if_pos h]
    rw [gt_iff_lt, UInt32.lt_iff_toNat_lt] at h
    simp only [maxObject, UInt16.toNat_toUInt32] at h
    simp; omega
  · rw [if_neg h]
    rw [gt_iff_lt, UInt32.lt_iff_toNat_lt] at h
    simp only [maxObject, UInt16.toNat_toUInt32] at h
    simp; omega

theorem validPropertyType_none (t : UInt32) : isValidPropertyType t = none ↔ t.toNat ≤ 4194303 := by
  unfold isValidPropertyType
  have : maxPropertyID.toNat = 4194303 := rfl
  by_cases h : t > maxPropertyID
  · rw [if_pos h]
    rw [gt_iff_lt, UInt32.lt_iff_toNat_lt] at h
    simp; omega
  · rw [if_neg h]
    rw [gt_iff_lt, UInt32.lt_iff_toNat_lt] at h
    simp; omega

/-- A property list or object type the library must refuse. -/
def C25_Invalid (o : Object) : Prop :=
  1023 < o.id.typ.toNat ∨ ∃ p more, o.properties = p :: more ∧ 4194303 < p.typ.toNat

theorem readPropertyHeader_invalid (e : Enc) (o : Object) (h : C25_Invalid o)
    (hne : o.properties ≠ []) : ∃ err, e.readPropertyHeader 0 o = .ok (e, 0, some err) := by
  unfold Enc.readPropertyHeader
  cases ht : isValidObjectType o.id.typ with
  | some err => exact ⟨err, rfl⟩
  | none =>
    rw [validObjectType_none] at ht
    rcases h with h | ⟨p, more, hp, h⟩
    · omega
    · rw [hp]
      dsimp only
      cases hv : isValidPropertyType p.typ with
      | some err => exact ⟨err, rfl⟩
      | none => rw [validPropertyType_none] at hv; omega

/-- C25 fails for ReadProperty: for every invalid object or property the encoder
reports success and hands over a request that consists of the header only. -/
theorem C25_fails_read (invoke : UInt8) (data : PropertyData) (h : C25_Invalid data.object)
    (hne : data.object.properties ≠ []) :
    Enc.new.readProperty invoke data = .ok (⟨[0, 5, invoke, 12], none⟩, none) := by
  unfold Enc.readProperty
  rw [Enc.apdu_request]
  obtain ⟨err, he⟩ := readPropertyHeader_invalid (Enc.new.write (Spec.request invoke 12)) _ h hne
  dsimp only
  rw [he]
  rfl

/-- C25 fails for ReadPropertyMultiple: object type 1024 is encoded as object type 0. -/
theorem C25_fails_multiple (invoke : UInt8) (inst : UInt32) (ps : List Property) :
    Enc.new.readMultiple invoke [{ id := ⟨1024, inst⟩, properties := ps }]
      = Enc.new.readMultiple invoke [{ id := ⟨0, inst⟩, properties := ps }] := by
  unfold Enc.readMultiple Enc.objects
  simp only [Enc.contextObjectID_eq]
  rfl

/-- C25 for WriteProperty (and for ReadProperty acknowledgements): refused with an
error.  Missing: ReadProperty, ReadPropertyMultiple, WritePropertyMultiple
(`C25_fails_*`). -/
theorem C25_write_partial (invoke : UInt8) (data : PropertyData) (h : C25_Invalid data.object)
    (hne : data.object.properties ≠ []) :
    (∃ e err, Enc.new.writeProperty invoke data = .ok (e, some err)) ∧
    (∃ e err, Enc.new.readPropertyAck invoke data = .ok (e, some err)) := by
  constructor
  · unfold Enc.writeProperty
    rw [Enc.apdu_request]
    obtain ⟨err, he⟩ := readPropertyHeader_invalid (Enc.new.write (Spec.request invoke 15)) _ h hne
    exact ⟨_, err, by simp only [he, Outcome.ok_bind]; rfl⟩
  · unfold Enc.readPropertyAck
    split
    · rw [Enc.apdu_complexAck]
      obtain ⟨err, he⟩ := readPropertyHeader_invalid
        (Enc.new.write (Spec.complexAckHeader invoke 12)) _ h hne
      exact ⟨_, err, by simp only [he, Outcome.ok_bind]; rfl⟩
    · exact ⟨_, _, rfl⟩

example : C25_Invalid { id := ⟨1024, 1⟩, properties := [{ typ := 85 }] } ∧
    C25_Invalid { id := ⟨1, 1⟩, properties := [{ typ := 4194304 }] } := by
  refine ⟨Or.inl (by decide), Or.inr ⟨_, _, rfl, by decide⟩⟩

/-! ## C26 ReadProperty acknowledgements produced by the library -/

/-- What the library writes as acknowledgement: the standard's octets except that
the value is closed by tag 4 instead of 3. -/
theorem readPropertyAck_eq (invoke : UInt8) (data : PropertyData) (p : Property) (bs : List UInt8)
    (hid : C04_Valid data.object.id) (hp : data.object.properties = [p])
    (hpt : p.typ.toNat ≤ 4194303) (hv : Enc.new.appData p.data false = .ok (none, ⟨bs, none⟩)) :
    Enc.new.readPropertyAck invoke data = .ok (⟨Spec.complexAckHeader invoke 12 ++
      (Spec.ctxObjectId 0 data.object.id.typ.toNat data.object.id.inst.toNat ++ (p.ref.octets 1 2 ++
        (Spec.openTag 3 ++ (bs ++ Spec.closeTag 4)))), none⟩, none) := by
  unfold Enc.readPropertyAck
  rw [hp]
  simp only [Enc.apdu_complexAck, Enc.readPropertyHeader_ok _ _ p [] hid hp hpt, Outcome.ok_bind,
    Enc.write_write, Option.isSome_none, Bool.false_eq_true, if_false, Enc.tagNum_open,
    Enc.appData'_any hv, Enc.tagNum_close, Enc.new_write, Outcome.pure_eq, List.append_assoc]
  rfl

/-- C26 fails: for every object, property and value, what follows the opening tag 3
ends with closing tag 4; the result is never the standard's acknowledgement. -/
theorem C26_fails (invoke : UInt8) (data : PropertyData) (p : Property) (bs : List UInt8)
    (hid : C04_Valid data.object.id) (hp : data.object.properties = [p])
    (hpt : p.typ.toNat ≤ 4194303) (hv : Enc.new.appData p.data false = .ok (none, ⟨bs, none⟩)) :
    ∃ e, Enc.new.readPropertyAck invoke data = .ok (e, none) ∧
      e.buf.getLast? = some 0x4F ∧
      e.buf ≠ Spec.complexAckHeader invoke 12 ++ Spec.readPropertyAckBody data.object.id.typ.toNat
        data.object.id.inst.toNat p.ref bs := by
  refine ⟨_, readPropertyAck_eq invoke data p bs hid hp hpt hv, ?_, ?_⟩
  · simp [Spec.closeTag, Spec.numNibble, Spec.numExt, List.getLast?_append]
  · intro h
    have := congrArg List.getLast? h
    simp [Spec.readPropertyAckBody, Spec.closeTag, Spec.numNibble, Spec.numExt,
      List.getLast?_append] at this

/-- C26 round trip for one value of the kinds of C05 (the decoder ignores the wrong
closing tag): object, property, index and value come back. -/
theorem C26_roundtrip_partial (invoke : UInt8) (data : PropertyData) (p : Property) (s : Scalar)
    (hid : C04_Valid data.object.id) (hp : data.object.properties = [p])
    (hpt : p.typ.toNat ≤ 4194303) (hs : p.data = .one s) (hg : C05_Good s) (fuel : Nat)
    (hf : 2 ≤ fuel) :
    ∃ body d, Enc.new.readPropertyAck invoke data
        = .ok (⟨Spec.complexAckHeader invoke 12 ++ body, none⟩, none) ∧
      Dec.readProperty fuel (Dec.new body)
        = .ok (({ object := { id := data.object.id, properties :=
            [{ typ := p.typ, arrayIndex := p.arrayIndex, data := .one s }] } }, none), d) := by
  obtain ⟨bs, h1, h2⟩ := C05_roundtrip_partial s hg
  have hv : Enc.new.appData p.data false = .ok (none, ⟨bs, none⟩) := by rw [hs]; exact h1
  have hb := readPropertyAck_eq invoke data p bs hid hp hpt hv
  obtain ⟨q, m, h⟩ := Dec.readProperty_head fuel data.object.id p.typ
    ((if p.arrayIndex = arrayAll then [] else Spec.ctxUnsigned 2 p.arrayIndex.toNat) ++
      (Spec.openTag 3 ++ (bs ++ Spec.closeTag 4))) hid none
  obtain ⟨q', h'⟩ := Dec.readPropertyTail_values fuel data.object.id p.typ p.arrayIndex m 0x4F
    [(bs, s)] (by simpa using h2) (by simp; omega) q
  refine ⟨_, ⟨[0x4F], q', none⟩, hb, ?_⟩
  rw [ref_octets, List.append_assoc]
  simp only [List.flatMap_cons, List.flatMap_nil, List.append_nil] at h'
  exact h.trans h'

example : Enc.new.readPropertyAck 1 { object := { id := ⟨0, 5⟩, properties :=
    [{ typ := 85, arrayIndex := arrayAll, data := .one (.real 0x42290000) }] } }
    = .ok (⟨[0x30, 1, 12, 0x0C, 0, 0, 0, 5, 0x19, 85, 0x3E, 0x44, 0x42, 0x29, 0, 0, 0x4F], none⟩,
      none) ∧ C05_Good (.real 0x42290000) := by
  exact ⟨by decide +kernel, trivial⟩

/-! ## C27 ReadProperty results are complete and in order -/

/-- The decoder makes no value of type Enumerated; these become uint32. -/
theorem appData_not_enum {d d' : Dec} {s : Scalar} {e : Option GoErr}
    (h : Dec.appData d = .ok ((s, e), d')) (x : UInt32) : s ≠ .enum x := by
  rintro rfl
  unfold Dec.appData at h
  obtain ⟨⟨tag, m, len⟩, d1, _, h⟩ := D.bind_inv h
  dsimp only at h
  generalize hm : Dec.appDataOfTag tag len.toNat = mm at h
  unfold Dec.appDataOfTag at hm
  split at hm <;> subst hm
  all_goals
    first
      | (simp only [D.pure_apply, Outcome.ok.injEq, Prod.mk.injEq] at h; exact absurd h.1.1 (by simp))
      | (obtain ⟨_, _, _, h⟩ := D.bind_inv h
         first
          | (simp only [D.pure_apply, Outcome.ok.injEq, Prod.mk.injEq] at h; exact absurd h.1.1 (by simp))
          | (obtain ⟨_, _, _, h⟩ := D.bind_inv h
             simp only [D.pure_apply, Outcome.ok.injEq, Prod.mk.injEq] at h; exact absurd h.1.1 (by simp)))

/-- What the decoder makes of a readable value. -/
def DecodedAs (s : Scalar) (v : AppVal) : Prop := Means s v ∧ ∀ x, s ≠ .enum x

theorem decoded_means {ss : List Scalar} {vs : List AppVal} (h : List.Forall₂ DecodedAs ss vs) :
    List.Forall₂ Means ss vs := by
  induction h with
  | nil => exact List.Forall₂.nil
  | cons h _ ih => exact List.Forall₂.cons h.1 ih

theorem readable_list (vs : List AppVal) (h : ∀ v ∈ vs, C71_Readable v) :
    ∃ l : List (List UInt8 × Scalar), (∀ x ∈ l, Parses Dec.appData x.1 (x.2, none)) ∧
      l.flatMap Prod.fst = vs.flatMap AppVal.encoding ∧ l.length = vs.length ∧
      List.Forall₂ DecodedAs (l.map Prod.snd) vs := by
  induction vs with
  | nil => exact ⟨[], by simp, rfl, rfl, List.Forall₂.nil⟩
  | cons v vs ih =>
    obtain ⟨l, h1, h2, h3, h4⟩ := ih fun w hw => h w (by simp [hw])
    obtain ⟨s, h5, h6⟩ := C71_conforming_value_partial v (h v (by simp))
    refine ⟨(v.encoding, s) :: l, ?_, ?_, by simp [h3], List.Forall₂.cons ⟨h6, appData_not_enum (h5 none [])⟩ h4⟩
    · intro x hx
      rcases List.mem_cons.mp hx with rfl | hx
      · exact h5
      · exact h1 x hx
    · simp [h2]

/-- C27 from any state of the decoder. -/
theorem readProperty_values' (id : ObjectID) (p : Property) (vs : List AppVal) (hid : C04_Valid id)
    (hv : ∀ v ∈ vs, C71_Readable v) (fuel : Nat) (hf : vs.length < fuel)
    (p0 : Option UInt8) :
    ∃ ss d, List.Forall₂ DecodedAs ss vs ∧ (Dec.readProperty fuel ⟨Spec.readPropertyAckBody id.typ.toNat id.inst.toNat p.ref
        (vs.flatMap AppVal.encoding), p0, none⟩
      = .ok (({ object := { id := id, properties := [⟨p.typ, p.arrayIndex, match ss with
            | [s] => .one s
            | _ => .many ss, 0⟩] } }, none), d)) ∧ d.err = none := by
  obtain ⟨l, h1, h2, h3, h4⟩ := readable_list vs hv
  obtain ⟨q, m, h⟩ := Dec.readProperty_head fuel id p.typ
    ((if p.arrayIndex = arrayAll then [] else Spec.ctxUnsigned 2 p.arrayIndex.toNat) ++
      (Spec.openTag 3 ++ (l.flatMap Prod.fst ++ [0x3F]))) hid p0
  obtain ⟨q', h'⟩ := Dec.readPropertyTail_values fuel id p.typ p.arrayIndex m 0x3F l h1
    (by omega) q
  refine ⟨l.map Prod.snd, ⟨[0x3F], q', none⟩, h4, ?_, rfl⟩
  have e : Spec.readPropertyAckBody id.typ.toNat id.inst.toNat p.ref (vs.flatMap AppVal.encoding)
      = Spec.ctxObjectId 0 id.typ.toNat id.inst.toNat ++ (Spec.ctxUnsigned 1 p.typ.toNat ++
        ((if p.arrayIndex = arrayAll then [] else Spec.ctxUnsigned 2 p.arrayIndex.toNat) ++
      (Spec.openTag 3 ++ (l.flatMap Prod.fst ++ [0x3F])))) := by
    unfold Spec.readPropertyAckBody
    rw [ref_octets, h2]
    simp only [List.append_assoc]
    rfl
  rw [e]
  refine h.trans (h'.trans ?_)
  rcases l.map Prod.snd with _ | ⟨a, _ | ⟨b, r⟩⟩ <;> rfl

/-- C27.  An acknowledgement for any object, property and index carrying any list
of readable values decodes to exactly these values in order; one value is handed
over as such, any other number as a list.  Missing: the value kinds the decoder
misreads (dates, long bit strings, negative 3-octet integers, see C71). -/
theorem C27_values_partial (id : ObjectID) (p : Property) (vs : List AppVal) (hid : C04_Valid id)
    (hv : ∀ v ∈ vs, C71_Readable v) (fuel : Nat) (hf : vs.length < fuel) :
    ∃ ss d, List.Forall₂ Means ss vs ∧
      Dec.readProperty fuel (Dec.new (Spec.readPropertyAckBody id.typ.toNat id.inst.toNat p.ref
        (vs.flatMap AppVal.encoding)))
      = .ok (({ object := { id := id, properties := [⟨p.typ, p.arrayIndex, match ss with
            | [s] => .one s
            | _ => .many ss, 0⟩] } }, none), d) := by
  obtain ⟨ss, d, h1, h2, _⟩ := readProperty_values' id p vs hid hv fuel hf none
  exact ⟨ss, d, decoded_means h1, h2⟩

/-- Two values: the list [72.5, "Hi"] of a property with index 3. -/
example : ∃ d, Dec.readProperty 10 (Dec.new [0x0C, 0, 0, 0, 5, 0x19, 85, 0x29, 3, 0x3E,
      0x44, 0x42, 0x91, 0, 0, 0x73, 0, 72, 105, 0x3F])
    = .ok (({ object := { id := ⟨0, 5⟩, properties :=
        [⟨85, 3, .many [.real 0x42910000, .str [72, 105]], 0⟩] } }, none), d) :=
  ⟨⟨[0x3F], some 105, none⟩, by decide +kernel⟩

/-! ## C28 ReadProperty decoding terminates -/

theorem readPropertyValues_terminates (fuel : Nat) : ∀ (acc : List Scalar) (d : Dec),
    (d.err ≠ none → d.Failed) → d.buf.length ≤ fuel → 1 ≤ fuel →
    Dec.readPropertyValues fuel acc d ≠ .diverge := by
  induction fuel with
  | zero => intro acc d _ _ h; omega
  | succ n ih =>
    intro acc d hinv hl _
    unfold Dec.readPropertyValues
    rw [D.run_bind (Dec.len_run _)]
    by_cases hgt : d.buf.length > 1
    · rw [if_pos hgt]
      have he : d.err = none := by
        by_contra hc
        have := (hinv hc).2.1
        rw [this] at hgt
        simp at hgt
      have hb : d.buf ≠ [] := by
        intro hc; rw [hc] at hgt; simp at hgt
      cases ha : Dec.appData d with
      | diverge => exact absurd ha (Dec.noDiv_appData d)
      | panic k => rw [D.bind_apply, ha]; simp [Outcome.bind]
      | ok r =>
        obtain ⟨⟨s, err⟩, d1⟩ := r
        rw [D.run_bind ha]
        have hp := Dec.appData_progress _ _ _ he hb ha
        have hi := Dec.appData_sticky.2 _ _ _ hinv ha
        cases err with
        | some x => simp [D.run_bind (show D.modify (fun d => { d with err := some x }) d1
            = .ok ((), { d1 with err := some x }) from rfl), D.pure_apply]
        | none =>
          simp only [Option.isSome_none, Bool.false_eq_true, if_false]
          exact ih _ _ hi (by omega) (by omega)
    · rw [if_neg hgt]
      simp [D.pure_apply]

/-- C28 from any state of the decoder. -/
theorem readProperty_terminates (d0 : Dec) (inv0 : d0.err ≠ none → d0.Failed) (fuel : Nat)
    (hf : d0.buf.length ≤ fuel) : Dec.readProperty fuel d0 ≠ .diverge := by
  unfold Dec.readProperty
  rw [D.run_bind (Dec.len_run _)]
  by_cases h7 : d0.buf.length < 7
  · rw [if_pos h7]; simp [D.pure_apply]
  rw [if_neg h7]
  obtain ⟨⟨tag, m⟩, d1, e1⟩ := Dec.tagNumber_total.1 d0
  have l1 := Dec.shrinks_tagNumber _ _ _ e1
  have i1 := Dec.tagNumber_total.2.2 _ _ _ inv0 e1
  rw [D.run_bind e1]
  dsimp only
  split
  · simp [D.pure_apply]
  split
  · simp [D.pure_apply]
  obtain ⟨id, d2, e2⟩ := Dec.objectId_all.1 d1
  have l2 := Dec.shrinks_objectId _ _ _ e2
  have i2 := Dec.objectId_all.2.1.2 _ _ _ i1 e2
  rw [D.run_bind e2]
  obtain ⟨⟨tag', m'⟩, d3, e3⟩ := Dec.tagNumber_total.1 d2
  have l3 := Dec.shrinks_tagNumber _ _ _ e3
  have i3 := Dec.tagNumber_total.2.2 _ _ _ i2 e3
  rw [D.run_bind e3]
  dsimp only
  split
  · simp [D.pure_apply]
  obtain ⟨v, d4, e4⟩ := (Dec.value_total m').1 d3
  have l4 := Dec.shrinks_value _ _ _ _ e4
  have i4 := (Dec.value_total m').2.2 _ _ _ i3 e4
  rw [D.run_bind e4]
  obtain ⟨typ, d5, e5⟩ := (Dec.unsigned_total v.toNat).1 d4
  have l5 := Dec.shrinks_unsigned _ _ _ _ e5
  have i5 := (Dec.unsigned_total v.toNat).2.2 _ _ _ i4 e5
  rw [D.run_bind (show Dec.enumerated v.toNat d4 = _ from e5)]
  unfold Dec.readPropertyTail
  rw [D.run_bind (Dec.len_run _)]
  have hfin : ∀ id p, NoDiv (Dec.readPropertyFinish id p) := fun id p =>
    Dec.error_all.1.noDiv.bind fun _ => NoDiv.pure _
  have hopt : ∀ c t m, Total (Dec.optTagNumber c t m) ∧ Sticky (Dec.optTagNumber c t m) ∧
      Shrinks (Dec.optTagNumber c t m) := by
    intro c t m
    unfold Dec.optTagNumber
    exact ⟨Total.ite Dec.tagNumber_total.1 (Total.pure _),
      Sticky.ite Dec.tagNumber_total.2 (Sticky.pure _),
      Shrinks.ite Dec.shrinks_tagNumber (Shrinks.pure _)⟩
  obtain ⟨⟨tag6, m6⟩, d6, e6⟩ := (hopt (decide (d5.buf.length ≠ 0)) tag' m').1 d5
  have l6 := (hopt _ _ _).2.2 _ _ _ e6
  have i6 := (hopt _ _ _).2.1.2 _ _ _ i5 e6
  rw [D.run_bind e6]
  dsimp only
  rw [D.run_bind (Dec.len_run _)]
  by_cases hc : d6.buf.length ≠ 0 ∨ tag6 ≥ 2
  · rw [if_pos hc]
    have hlenall : Total Dec.len ∧ Sticky Dec.len := by
      refine ⟨fun d => ⟨_, _, rfl⟩, ?_, ?_⟩
      · intro d a d' h h'; cases h'; exact h
      · intro d a d' h h'; cases h'; exact h
    have hidx : Total (Dec.readPropertyIndex tag6 m6) ∧ Sticky (Dec.readPropertyIndex tag6 m6) ∧
        Shrinks (Dec.readPropertyIndex tag6 m6) := by
      unfold Dec.readPropertyIndex
      refine ⟨?_, ?_, ?_⟩
      · exact (Dec.value_total _).1.bind fun _ => Total.ite ((Dec.unsigned_total _).1.bind fun _ =>
          hlenall.1.bind fun _ => Total.ite (Dec.tagNumber_total.1.bind fun _ => Total.pure _)
            (Total.pure _)) (Total.pure _)
      · exact (Dec.value_total _).2.bind fun _ => Sticky.ite ((Dec.unsigned_total _).2.bind fun _ =>
          hlenall.2.bind fun _ => Sticky.ite (Dec.tagNumber_total.2.bind fun _ => Sticky.pure _)
            (Sticky.pure _)) (Sticky.pure _)
      · exact (Dec.shrinks_value _).bind fun _ => Shrinks.ite ((Dec.shrinks_unsigned _).bind fun _ =>
          Dec.shrinks_len.bind fun _ => Shrinks.ite (Dec.shrinks_tagNumber.bind fun _ =>
            Shrinks.pure _) (Shrinks.pure _)) (Shrinks.pure _)
    obtain ⟨⟨idx, o⟩, d7, e7⟩ := hidx.1 d6
    have l7 := hidx.2.2 _ _ _ e7
    have i7 := hidx.2.1.2 _ _ _ i6 e7
    rw [D.run_bind e7]
    dsimp only
    by_cases ho : o = 3
    · rw [if_pos ho]
      have hnd := readPropertyValues_terminates fuel [] d7 i7 (by omega) (by omega)
      cases hr : Dec.readPropertyValues fuel [] d7 with
      | diverge => exact absurd hr hnd
      | panic k => rw [D.bind_apply, hr]; simp [Outcome.bind]
      | ok r =>
        obtain ⟨⟨l, err⟩, d8⟩ := r
        rw [D.run_bind hr]
        dsimp only
        split_ifs
        · simp [D.pure_apply]
        · exact hfin _ _ _
    · rw [if_neg ho]; exact hfin _ _ _
  · rw [if_neg hc]; exact hfin _ _ _

/-- C28.  With as many loop iterations as there are octets the decoder never runs
out of them, for every input. -/
theorem C28_terminates (b : List UInt8) (fuel : Nat) (hf : b.length ≤ fuel) :
    Dec.readProperty fuel (Dec.new b) ≠ .diverge :=
  readProperty_terminates (Dec.new b) (by intro h; exact absurd rfl h) fuel hf

/-- A truncated acknowledgement: decoding stops with an error. -/
example : Dec.readProperty 12
      (Dec.new [0x0C, 0, 0, 0, 5, 0x19, 85, 0x3E, 0x44, 0x42, 0x29, 0])
    = .ok (({ object := { id := ⟨0, 5⟩ } }, some .unexpectedEof),
        ⟨[], none, some .unexpectedEof⟩) := by decide +kernel

end Bac.Props
