import Verif.Props.Calls
import Verif.Props.ReadMultiple
/-!
# Lemmas for whole calls: the octets of the requests and the decoding of answers
-/

namespace Bac

open Spec (AppVal Means)

/-- The network header of a request, octet by octet. -/
def requestOctets (dest : Address) : List UInt8 :=
  if dest.net = 0 then [1, 4] else [1, 0x24] ++ (be16 dest.net ++ ([dest.len] ++ (dest.adr ++ [255])))

theorem npdu_request (my dest : Address) (hmy : my.net = 0) :
    Enc.new.npdu (requestNpdu my dest) = .ok ⟨requestOctets dest, none⟩ := by
  unfold requestOctets
  by_cases h : dest.net = 0
  · rw [if_pos h]
    simp only [Enc.npdu, requestNpdu, npduMeta, hmy, h, ne_eq, not_true_eq_false, if_false,
      show checkMask (setInfoMask (setInfoMask 0 false 0x80) true 0x04 ||| 0) 0x20 = false from rfl,
      show checkMask (setInfoMask (setInfoMask 0 false 0x80) true 0x04 ||| 0) 0x08 = false from rfl,
      show checkMask (setInfoMask (setInfoMask 0 false 0x80) true 0x04 ||| 0) 0x80 = false from rfl,
      Enc.optNpduAddress, Bool.false_eq_true, Outcome.ok_bind, Enc.write_write, Enc.new_write]
    rfl
  · rw [if_neg h]
    simp only [Enc.npdu, requestNpdu, npduMeta, hmy, h, ne_eq, not_true_eq_false, not_false_eq_true, if_false, if_true,
      show checkMask (setInfoMask (setInfoMask (setInfoMask 0 false 0x80) true 0x04 ||| 0) true 0x20) 0x20 = true from rfl,
      show checkMask (setInfoMask (setInfoMask (setInfoMask 0 false 0x80) true 0x04 ||| 0) true 0x20) 0x08 = false from rfl,
      show checkMask (setInfoMask (setInfoMask (setInfoMask 0 false 0x80) true 0x04 ||| 0) true 0x20) 0x80 = false from rfl,
      Enc.optNpduAddress, Enc.npduAddress, Bool.false_eq_true, Outcome.ok_bind, Enc.write_write, Enc.new_write]
    rfl

/-- The station an address stands for: none on the local network. -/
def station (a : Address) : Option Spec.NetAddr := if a.net = 0 then none else some ⟨a.net.toNat, a.adr⟩

theorem requestOctets_spec (dest : Address) (h : dest.net = 0 ∨ dest.len.toNat = dest.adr.length) :
    requestOctets dest = (Spec.requestHeader (station dest)).octets := by
  unfold requestOctets station
  by_cases h0 : dest.net = 0
  · rw [if_pos h0, if_pos h0]; rfl
  · rw [if_neg h0, if_neg h0]
    have := Props.addr_octets dest (h.resolve_left h0)
    unfold Spec.NetHeader.octets Spec.requestHeader
    simp only [this]
    show _ = [1, 36] ++ _ ++ [] ++ [255] ++ []
    simp

theorem requestOctets_ok (dest : Address) (h : dest.adr.length < 256) :
    (Spec.requestHeader (station dest)).Ok := by
  refine ⟨rfl, show 0 < 4 by decide, ?_, by simp [Spec.requestHeader]⟩
  intro a ha
  unfold Spec.requestHeader station at ha
  by_cases h0 : dest.net = 0
  · simp [h0] at ha
  · simp only [h0, if_false, Option.some.injEq] at ha
    subst ha
    refine ⟨?_, UInt16.toNat_lt _, h⟩
    rcases Nat.eq_zero_or_pos dest.net.toNat with hz | hz
    · exact absurd (UInt16.toNat_inj.mp hz) h0
    · exact hz

theorem setLength_net (a : Address) : a.setLength.net = a.net := by unfold Address.setLength; split <;> rfl

theorem setLength_adr (a : Address) : a.setLength.adr = a.adr := by unfold Address.setLength; split <;> rfl

theorem requestOctets_length (a b : Address) (h1 : a.net = b.net) (h2 : a.adr = b.adr) :
    (requestOctets a).length = (requestOctets b).length := by
  unfold requestOctets
  rw [h1, h2]
  split
  · rfl
  · simp only [List.length_append, List.length_cons, List.length_nil]

/-! ## Requests after a network header -/

theorem enc_pre (pre : List UInt8) : (⟨pre, none⟩ : Enc) = Enc.new.write pre := (Enc.new_write pre).symm

theorem readProperty_octets (pre : List UInt8) (invoke : UInt8) (data : PropertyData) (p : Property)
    (more : List Property) (hid : Props.C04_Valid data.object.id)
    (hp : data.object.properties = p :: more) (hpt : p.typ.toNat ≤ 4194303) :
    (⟨pre, none⟩ : Enc).readProperty invoke data = .ok (⟨pre ++
      Spec.readProperty invoke data.object.id.typ.toNat data.object.id.inst.toNat p.ref, none⟩, none) := by
  rw [enc_pre]
  unfold Enc.readProperty
  simp only [Enc.apdu_request, Enc.readPropertyHeader_ok _ _ p more hid hp hpt, Outcome.ok_bind,
    Enc.write_write, Enc.new_write, Spec.readProperty, List.append_assoc]
  rfl

theorem readProperty_bare (pre : List UInt8) (invoke : UInt8) (data : PropertyData)
    (h : Props.C25_Invalid data.object) (hne : data.object.properties ≠ []) :
    (⟨pre, none⟩ : Enc).readProperty invoke data
      = .ok (⟨pre ++ [0, 5, invoke, 12], none⟩, none) := by
  rw [enc_pre]
  unfold Enc.readProperty
  rw [Enc.apdu_request, Enc.write_write]
  obtain ⟨err, he⟩ := Props.readPropertyHeader_invalid (Enc.new.write (pre ++ Spec.request invoke 12)) _ h hne
  dsimp only
  rw [he]
  simp only [Outcome.ok_bind, Enc.new_write]
  rfl

theorem writeProperty_octets (pre : List UInt8) (invoke : UInt8) (data : PropertyData) (p : Property)
    (more : List Property) (v : AppVal) (hid : Props.C04_Valid data.object.id)
    (hp : data.object.properties = p :: more) (hpt : p.typ.toNat ≤ 4194303)
    (hv : Props.C29_Meant data.object p v) :
    (⟨pre, none⟩ : Enc).writeProperty invoke data = .ok (⟨pre ++ Spec.writeProperty invoke
      data.object.id.typ.toNat data.object.id.inst.toNat p.ref v.encoding
      (if p.priority.toNat = 0 then none else some p.priority.toNat), none⟩, none) := by
  rw [enc_pre]
  unfold Enc.writeProperty
  have ha := Props.meant_encoding data.object p more v hp hv
  simp only [Enc.apdu_request, Enc.readPropertyHeader_ok _ _ p more hid hp hpt, Outcome.ok_bind,
    hp, Enc.write_write, Option.isSome_none, Bool.false_eq_true, if_false, Enc.tagNum_open,
    Enc.appData'_any ha, Enc.tagNum_close, Props.optPriority_eq, Enc.new_write, Outcome.pure_eq,
    Spec.writeProperty, List.append_assoc]
  have e4 : (3 + 1 : UInt8).toNat = 4 := rfl
  rw [e4]
  by_cases h : p.priority.toNat = 0 <;> simp [h, Enc.write]

theorem writeProperty_bare (pre : List UInt8) (invoke : UInt8) (data : PropertyData)
    (h : Props.C25_Invalid data.object) (hne : data.object.properties ≠ []) :
    ∃ err, (⟨pre, none⟩ : Enc).writeProperty invoke data
      = .ok (⟨pre ++ [0, 5, invoke, 15], none⟩, some err) := by
  rw [enc_pre]
  unfold Enc.writeProperty
  rw [Enc.apdu_request, Enc.write_write]
  obtain ⟨err, he⟩ := Props.readPropertyHeader_invalid (Enc.new.write (pre ++ Spec.request invoke 15)) _ h hne
  refine ⟨err, ?_⟩
  dsimp only
  rw [he]
  simp only [Outcome.ok_bind, Enc.new_write, Option.isSome_some, if_true]
  rfl

theorem readMultiple_octets (pre : List UInt8) (invoke : UInt8) (os : List Object)
    (h : ∀ o ∈ os, Props.C04_Valid o.id) :
    (⟨pre, none⟩ : Enc).readMultiple invoke os
      = .ok (⟨pre ++ Spec.readMultiple invoke (os.map Props.readSpecOf), none⟩, none) := by
  rw [enc_pre]
  unfold Enc.readMultiple
  simp only [Enc.apdu_request, Props.objects_read os h, Outcome.ok_bind, Enc.write_write, Enc.new_write,
    Spec.readMultiple]
  rfl

theorem writeMultiple_octets (pre : List UInt8) (invoke : UInt8) (val : Property → AppVal) (os : List Object)
    (h : ∀ o ∈ os, Props.C04_Valid o.id)
    (hv : ∀ o ∈ os, ∀ p ∈ o.properties, Props.OwnType p.data (val p)) :
    (⟨pre, none⟩ : Enc).writeMultiple invoke os
      = .ok (⟨pre ++ (Spec.request invoke 16 ++ os.flatMap (Props.writtenObject 2 val)), none⟩, none) := by
  rw [enc_pre]
  unfold Enc.writeMultiple
  simp only [Enc.apdu_request, Props.objects_write val os h hv, Outcome.ok_bind, Enc.write_write, Enc.new_write]
  rfl

/-! ## Answers -/

/-- The header of an acknowledgement, at the start of an answer. -/
theorem answerHeader_ack (t invoke service : UInt8) (ht : t &&& 0xF0 = 0x30 ∨ t &&& 0xF0 = 0x20)
    (rest : List UInt8) :
    answerHeader ([t, invoke, service] ++ rest) = .ok (.ok ⟨rest, some service, none⟩) := by
  have h := Dec.parses_ack t invoke service ht none rest
  unfold answerHeader Dec.new
  rw [h]
  rfl

/-- The header of a confirmed request passes as well. -/
theorem answerHeader_request (segsApdu invoke service : UInt8) (rest : List UInt8) :
    ∃ d, answerHeader ([0, segsApdu, invoke, service] ++ rest) = .ok (.ok d) := by
  obtain ⟨a, d, h, _, _, _, _, _, _, h1, h2⟩ := Dec.apdu_request_run 0 segsApdu invoke service rest none rfl rfl
  refine ⟨d, ?_⟩
  unfold answerHeader Dec.new
  rw [h]
  simp only [h1, h2]
  rfl

/-- A ReadProperty acknowledgement with readable values. -/
theorem readAnswer_values (fuel : Nat) (invoke service : UInt8) (id : ObjectID) (p : Property) (vs : List AppVal)
    (hid : Props.C04_Valid id) (hv : ∀ v ∈ vs, Props.C71_Readable v) (hf : vs.length < fuel) :
    ∃ ss, List.Forall₂ Props.DecodedAs ss vs ∧
      readAnswer fuel (Spec.complexAck invoke service (Spec.readPropertyAckBody id.typ.toNat id.inst.toNat p.ref
        (vs.flatMap AppVal.encoding)))
      = .ok (.ok { object := { id := id, properties := [⟨p.typ, p.arrayIndex, match ss with
            | [s] => .one s
            | _ => .many ss, 0⟩] } }) := by
  obtain ⟨ss, d, h1, h2, h3⟩ := Props.readProperty_values' id p vs hid hv fuel hf (some service)
  refine ⟨ss, h1, ?_⟩
  unfold readAnswer Spec.complexAck
  rw [answerHeader_ack 0x30 invoke service (Or.inl rfl)]
  simp only [Outcome.ok_bind, h2, h3]
  rfl

/-! ## The calls with valid arguments -/

/-- Object and property identifiers that fit the protocol. -/
def ValidRead (data : PropertyData) (p : Property) : Prop :=
  Props.C04_Valid data.object.id ∧ (∃ more, data.object.properties = p :: more) ∧ p.typ.toNat ≤ 4194303

theorem readProperty_call (fuel : Nat) (my : Address) (dev : Device) (rp : PropertyData) (p : Property)
    (id : UInt8) (script : Nat → Attempt) (hmy : my.net = 0) (hv : ValidRead rp p) :
    clientReadProperty fuel my dev rp (some id) script =
      attempts dev.addr.setLength (requestOctets dev.addr.setLength ++ Spec.readProperty id
        rp.object.id.typ.toNat rp.object.id.inst.toNat p.ref) (readStep fuel) script 1 0 (.failed .noId) := by
  obtain ⟨h1, ⟨more, h2⟩, h3⟩ := hv
  unfold clientReadProperty
  simp only [npdu_request my _ hmy, Outcome.ok_bind, readProperty_octets _ id rp p more h1 h2 h3]
  rfl

theorem writeProperty_call (my : Address) (dev : Device) (wp : PropertyData) (p : Property) (v : AppVal)
    (id : UInt8) (script : Nat → Attempt) (hmy : my.net = 0) (hv : ValidRead wp p)
    (hm : Props.C29_Meant wp.object p v) :
    clientWriteProperty my dev wp (some id) script =
      attempts dev.addr.setLength (requestOctets dev.addr.setLength ++ Spec.writeProperty id
        wp.object.id.typ.toNat wp.object.id.inst.toNat p.ref v.encoding
        (if p.priority.toNat = 0 then none else some p.priority.toNat)) writeStep script 2 0 (.failed .noId) := by
  obtain ⟨h1, ⟨more, h2⟩, h3⟩ := hv
  unfold clientWriteProperty
  simp only [npdu_request my _ hmy, Outcome.ok_bind, writeProperty_octets _ id wp p more v h1 h2 h3 hm]

/-- The packet of a multi-property read. -/
def readMultiPack (dev : Device) (id : UInt8) (os : List Object) : List UInt8 :=
  requestOctets dev.addr.setLength ++ Spec.readMultiple id (os.map Props.readSpecOf)

/-- The packet of a multi-property write. -/
def writeMultiPack (dev : Device) (id : UInt8) (val : Property → AppVal) (os : List Object) : List UInt8 :=
  requestOctets dev.addr ++ (Spec.request id 16 ++ os.flatMap (Props.writtenObject 2 val))

theorem readMulti_call (fuel : Nat) (my : Address) (dev : Device) (os : List Object)
    (id : UInt8) (script : Nat → Attempt) (hmy : my.net = 0) (hv : ∀ o ∈ os, Props.C04_Valid o.id)
    (h0 : dev.maxApdu ≠ 0) :
    clientReadMulti fuel my dev os (some id) script =
      if dev.maxApdu < UInt32.ofNat (readMultiPack dev id os).length then ([], .ok (.error .tooLarge))
      else ((attempts dev.addr.setLength (readMultiPack dev id os) (readMultiStep fuel) script 2 0 (.failed .noId)).1,
        wrapFailed (attempts dev.addr.setLength (readMultiPack dev id os) (readMultiStep fuel) script 2 0 (.failed .noId)).2) := by
  unfold clientReadMulti
  simp only [if_neg h0, npdu_request my _ hmy, Outcome.ok_bind, readMultiple_octets _ id os hv]
  rfl

theorem writeMulti_call (my : Address) (dev : Device) (val : Property → AppVal) (os : List Object)
    (id : UInt8) (script : Nat → Attempt) (hmy : my.net = 0) (hv : ∀ o ∈ os, Props.C04_Valid o.id)
    (hw : ∀ o ∈ os, ∀ p ∈ o.properties, Props.OwnType p.data (val p)) :
    clientWriteMulti my dev os (some id) script =
      if dev.maxApdu < UInt32.ofNat (writeMultiPack dev id val os).length then ([], .ok (.error .tooLarge))
      else ((attempts dev.addr (writeMultiPack dev id val os) writeMultiStep script 2 0 (.failed .noId)).1,
        wrapFailed (attempts dev.addr (writeMultiPack dev id val os) writeMultiStep script 2 0 (.failed .noId)).2) := by
  unfold clientWriteMulti
  simp only [npdu_request my _ hmy, Outcome.ok_bind, writeMultiple_octets _ id val os hv hw]
  rfl

theorem datagram_frame (dest : Address) (pack : List UInt8) :
    (datagram dest pack).data = Spec.frame (sendFunction dest none) pack := by
  have : Spec.bigEndian 2 (4 + pack.length) = be16 (UInt16.ofNat (4 + pack.length)) := by
    rw [be16_spec]
    simp only [Spec.bigEndian, UInt16.toNat_ofNat']
    have h1 : (4 + pack.length) % 2 ^ 16 / 256 % 256 = (4 + pack.length) / 256 % 256 := by omega
    have h2 : (4 + pack.length) % 2 ^ 16 % 256 = (4 + pack.length) % 256 := by omega
    rw [h1, h2]
  rw [Spec.frame, this]
  rfl

end Bac
