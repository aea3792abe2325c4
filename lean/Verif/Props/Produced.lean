import Verif.Props.Incoming
import Verif.Props.ReadMultiple

/-!
# The octets of an acknowledgement the library produces, and two border cases

C35: exactly which octets the encoder of a ReadPropertyMultiple acknowledgement
writes, and when it refuses or crashes.  C75: an I-Am whose source network is zero.
C39: a forwarded frame that is too short for a network header.  C84: components of context tag 16.
-/

namespace Bac.Props
open Bac

/-! ## C35: the encoder of the acknowledgement -/

/-- The octets Go's `binary.Write` has for a value: a fixed-size value big-endian, an
octet string as it is; none for a list, a string, a bit string, a date or a time. -/
def C35_raw : Value → Option (List UInt8)
  | .one .null => some []
  | .one (.bool b) => some [if b then 1 else 0]
  | .one (.uint v) => some (Spec.bigEndian 4 v.toNat)
  | .one (.real v) => some (Spec.bigEndian 4 v.toNat)
  | .one (.enum v) => some (Spec.bigEndian 4 v.toNat)
  | .one (.int v) => some (Spec.bigEndian 4 (v.toInt % 2 ^ 32).toNat)
  | .one (.double v) => some (Spec.bigEndian 8 v.toNat)
  | .one (.octets l) => some l
  | .one (.objId id) => some (Spec.bigEndian 2 id.typ.toNat ++ Spec.bigEndian 4 id.inst.toNat)
  | _ => none

/-- A value that is a nil interface or a nil pointer. -/
def C35_absent (v : Value) : Prop := v = .one .nil ∨ v = .one (.bits none)

/-- The octets of one property: number, index, the value between the brackets, and
the value again. -/
def C35_property (p : Property) : List UInt8 :=
  Spec.ctxUnsigned 2 p.typ.toNat ++
    (if p.arrayIndex.toNat = 2 ^ 32 - 1 then [] else Spec.ctxUnsigned 3 p.arrayIndex.toNat) ++
    Spec.openTag 4 ++ (C35_raw p.data).getD [] ++ Spec.closeTag 4 ++ (C35_raw p.data).getD []

/-- The octets of one object. -/
def C35_object (o : Object) : List UInt8 :=
  Spec.ctxObjectId 0 (o.id.typ.toNat % 2 ^ 10) (o.id.inst.toNat % 2 ^ 22) ++ Spec.openTag 1 ++
    o.properties.flatMap C35_property ++ Spec.closeTag 1

theorem int32_twos (v : Int32) : v.toUInt32.toNat = (v.toInt % 2 ^ 32).toNat := by
  have h1 : v.toInt = v.toBitVec.toInt := rfl
  have h2 : v.toUInt32.toNat = v.toBitVec.toNat := rfl
  rw [h1, h2, BitVec.toInt_eq_toNat_cond]
  have := v.toBitVec.isLt
  split <;> omega

theorem writeValue_raw (e : Enc) (v : Value) (bs : List UInt8) (h : C35_raw v = some bs) :
    e.writeValue v = .ok (e.write bs) := by
  unfold Enc.writeValue
  cases he : e.err with
  | some x => simp [Enc.write, he]
  | none =>
    cases v with
    | many l => cases h
    | one s =>
      cases s <;> first
        | (cases h; done)
        | (simp only [C35_raw, Option.some.injEq] at h
           subst h
           simp only [binaryWrite, Outcome.ok_bind, be32_spec, be64_spec, be16_spec, int32_twos]
           rfl)

theorem writeValue_none (e : Enc) (v : Value) (he : e.err = none) (h : C35_raw v = none) :
    (C35_absent v ∧ e.writeValue v = .panic .nilDeref) ∨
      (¬ C35_absent v ∧ e.writeValue v = .ok { e with err := some .binaryInvalidType }) := by
  unfold Enc.writeValue C35_absent
  rw [he]
  cases v with
  | many l => right; exact ⟨by simp, rfl⟩
  | one s =>
    cases s with
    | nil => left; exact ⟨.inl rfl, rfl⟩
    | bits b =>
      cases b with
      | none => left; exact ⟨.inr rfl, rfl⟩
      | some b => right; exact ⟨by simp, rfl⟩
    | str b => right; exact ⟨by simp, rfl⟩
    | date d => right; exact ⟨by simp, rfl⟩
    | time d => right; exact ⟨by simp, rfl⟩
    | datetime d t => right; exact ⟨by simp, rfl⟩
    | unsupported n => right; exact ⟨by simp, rfl⟩
    | _ => cases h

theorem arrayAll_iff (x : UInt32) : x = arrayAll ↔ x.toNat = 2 ^ 32 - 1 := by
  rw [← UInt32.toNat_inj]; rfl

theorem write_flat (e : Enc) (a b : List UInt8) : (e.write a).write b = e.write (a ++ b) :=
  Enc.write_write e a b

theorem propertiesWithData_raw (ps : List Property) (h : ∀ p ∈ ps, (C35_raw p.data).isSome) :
    ∀ e : Enc, e.propertiesWithData ps = .ok (e.write (ps.flatMap C35_property)) := by
  induction ps with
  | nil => intro e; simp only [Enc.propertiesWithData, List.flatMap_nil]
           congr 1; cases e with | mk b er => cases er <;> simp [Enc.write]
  | cons p ps ih =>
    intro e
    obtain ⟨bs, hbs⟩ := Option.isSome_iff_exists.mp (h p (by simp))
    simp only [Enc.propertiesWithData, writeValue_raw _ _ _ hbs, Outcome.ok_bind,
      ih (fun q hq => h q (by simp [hq])), Enc.contextEnumerated, Enc.contextUnsigned_eq,
      Enc.optIndex_eq, Enc.tagNum_open, Enc.tagNum_close, Enc.write_write, List.flatMap_cons]
    congr 2
    unfold C35_property
    rw [hbs]
    simp only [arrayAll_iff, Option.getD_some, List.append_assoc]
    rfl

theorem objectsWithData_raw (os : List Object)
    (h : ∀ o ∈ os, ∀ p ∈ o.properties, (C35_raw p.data).isSome) :
    ∀ e : Enc, e.objectsWithData os = .ok (e.write (os.flatMap C35_object)) := by
  induction os with
  | nil => intro e; simp only [Enc.objectsWithData, List.flatMap_nil]
           congr 1; cases e with | mk b er => cases er <;> simp [Enc.write]
  | cons o os ih =>
    intro e
    simp only [Enc.objectsWithData, propertiesWithData_raw o.properties (h o (by simp)),
      Outcome.ok_bind, ih (fun q hq => h q (by simp [hq])), Enc.contextObjectID_eq,
      Enc.tagNum_open, Enc.tagNum_close, Enc.write_write, List.flatMap_cons]
    congr 2
    unfold C35_object
    simp only [List.append_assoc]
    rfl

/-- C35, the octets: for every invoke id and all objects whose values have a
fixed-size form, the acknowledgement is the three header octets and then every object
with every value written twice, the second time outside its brackets. -/
theorem C35_layout (invoke : UInt8) (os : List Object)
    (h : ∀ o ∈ os, ∀ p ∈ o.properties, (C35_raw p.data).isSome) :
    Enc.new.readMultipleAck invoke os =
      .ok (⟨[0x30, invoke, 14] ++ os.flatMap C35_object, none⟩, none) := by
  unfold Enc.readMultipleAck
  rw [apdu_readMultipleAck]
  simp only [objectsWithData_raw os h, Outcome.ok_bind, Enc.new_write, Outcome.pure_eq]
  rfl

/-- Three values of different kinds. -/
example : C35_object { id := ⟨2, 9⟩, properties := [⟨85, arrayAll, .one (.bool true), 0⟩,
      ⟨36, 3, .one (.octets [7, 8]), 0⟩, ⟨75, arrayAll, .one (.objId ⟨8, 77⟩), 0⟩] }
    = [0x0C, 0, 0x80, 0, 9, 0x1E, 0x29, 85, 0x4E, 1, 0x4F, 1,
       0x29, 36, 0x39, 3, 0x4E, 7, 8, 0x4F, 7, 8,
       0x29, 75, 0x4E, 0, 8, 0, 0, 0, 77, 0x4F, 0, 8, 0, 0, 0, 77, 0x1F] := by decide +kernel
example : C35_raw (.one (.int (-2))) = some [255, 255, 255, 254] := by decide +kernel

/-! After an error nothing is written any more, so the first bad value decides. -/

theorem write_err (e : Enc) (x : GoErr) (h : e.err = some x) (bs : List UInt8) : e.write bs = e := by
  simp [Enc.write, h]

theorem writeValue_err (e : Enc) (x : GoErr) (h : e.err = some x) (v : Value) :
    e.writeValue v = .ok e := by
  unfold Enc.writeValue; rw [h]

theorem propertiesWithData_err (ps : List Property) (e : Enc) (x : GoErr) (h : e.err = some x) :
    e.propertiesWithData ps = .ok e := by
  induction ps with
  | nil => rfl
  | cons p ps ih =>
    simp only [Enc.propertiesWithData, Enc.contextEnumerated, Enc.contextUnsigned_eq,
      Enc.optIndex_eq, Enc.tagNum_open, Enc.tagNum_close, write_err e x h,
      writeValue_err e x h, Outcome.ok_bind, ih]

theorem objectsWithData_err (os : List Object) (e : Enc) (x : GoErr) (h : e.err = some x) :
    e.objectsWithData os = .ok e := by
  induction os with
  | nil => rfl
  | cons o os ih =>
    simp only [Enc.objectsWithData, propertiesWithData_err _ e x h,
      Outcome.ok_bind, ih, Enc.contextObjectID_eq,
      Enc.tagNum_open, Enc.tagNum_close, write_err e x h]

theorem propertiesWithData_bad (ps : List Property) (p : Property)
    (h : ps.find? (fun q => (C35_raw q.data).isNone) = some p) :
    ∀ e : Enc, e.err = none →
      (C35_absent p.data ∧ e.propertiesWithData ps = .panic .nilDeref) ∨
      (¬ C35_absent p.data ∧ ∃ e', e.propertiesWithData ps = .ok e' ∧
        e'.err = some .binaryInvalidType) := by
  induction ps with
  | nil => cases h
  | cons q ps ih =>
    intro e he
    have hew : ∀ bs, (e.write bs).err = none := fun bs => by simp [Enc.write, he]
    cases hq : C35_raw q.data with
    | none =>
      rw [List.find?_cons_of_pos (by simp [hq])] at h
      obtain rfl := Option.some.inj h
      simp only [Enc.propertiesWithData, Enc.contextEnumerated, Enc.contextUnsigned_eq,
        Enc.optIndex_eq, Enc.tagNum_open, Enc.tagNum_close, Enc.write_write]
      rcases writeValue_none (e.write _) q.data (hew _) hq with ⟨ha, hw⟩ | ⟨ha, hw⟩
      · left
        refine ⟨ha, ?_⟩
        rw [hw]; rfl
      · right
        refine ⟨ha, { e.write (Spec.ctxUnsigned 2 q.typ.toNat ++ (if q.arrayIndex = arrayAll then [] else Spec.ctxUnsigned 3 q.arrayIndex.toNat) ++ Spec.openTag 4) with err := some .binaryInvalidType }, ?_, rfl⟩
        refine Eq.trans (congrArg (fun x => x >>= _) hw) ?_
        simp only [Outcome.ok_bind]
        rw [write_err _ .binaryInvalidType rfl, writeValue_err _ .binaryInvalidType rfl]
        simp only [Outcome.ok_bind]
        exact propertiesWithData_err _ _ _ rfl
    | some bs =>
      rw [List.find?_cons_of_neg (by simp [hq])] at h
      simp only [Enc.propertiesWithData, writeValue_raw _ _ _ hq, Outcome.ok_bind,
        Enc.contextEnumerated, Enc.contextUnsigned_eq,
        Enc.optIndex_eq, Enc.tagNum_open, Enc.tagNum_close, Enc.write_write]
      exact ih h _ (hew _)

theorem objectsWithData_bad (os : List Object) (p : Property)
    (h : (os.flatMap (·.properties)).find? (fun q => (C35_raw q.data).isNone) = some p) :
    ∀ e : Enc, e.err = none →
      (C35_absent p.data ∧ e.objectsWithData os = .panic .nilDeref) ∨
      (¬ C35_absent p.data ∧ ∃ e', e.objectsWithData os = .ok e' ∧
        e'.err = some .binaryInvalidType) := by
  induction os with
  | nil => cases h
  | cons o os ih =>
    intro e he
    have hew : ∀ bs, (e.write bs).err = none := fun bs => by simp [Enc.write, he]
    rw [List.flatMap_cons, List.find?_append] at h
    simp only [Enc.objectsWithData, Enc.contextObjectID_eq, Enc.tagNum_open, Enc.tagNum_close,
      Enc.write_write]
    cases hq : o.properties.find? (fun q => (C35_raw q.data).isNone) with
    | some q =>
      rw [hq] at h
      obtain rfl := Option.some.inj h
      rcases propertiesWithData_bad o.properties q hq (e.write _) (hew _) with ⟨ha, hw⟩ | ⟨ha, e', hw, hx⟩
      · left
        refine ⟨ha, ?_⟩
        rw [hw]; rfl
      · right
        refine ⟨ha, e', ?_, hx⟩
        rw [hw]
        simp only [Outcome.ok_bind, write_err _ _ hx]
        exact objectsWithData_err _ _ _ hx
    | none =>
      rw [hq, Option.none_or] at h
      have hall : ∀ q ∈ o.properties, (C35_raw q.data).isSome := by
        intro q hm
        have := List.find?_eq_none.mp hq q hm
        cases hr : C35_raw q.data with
        | none => simp [hr] at this
        | some b => rfl
      rw [propertiesWithData_raw _ hall]
      simp only [Outcome.ok_bind, Enc.write_write]
      exact ih h _ (hew _)

/-- C35, the other values: when the first value without a fixed-size form is a nil
interface or nil bit string the encoder crashes, otherwise it returns an error. -/
theorem C35_refused (invoke : UInt8) (os : List Object) (p : Property)
    (h : (os.flatMap (·.properties)).find? (fun q => (C35_raw q.data).isNone) = some p) :
    (C35_absent p.data → Enc.new.readMultipleAck invoke os = .panic .nilDeref) ∧
    (¬ C35_absent p.data → ∃ e, Enc.new.readMultipleAck invoke os =
      .ok (e, some .binaryInvalidType)) := by
  unfold Enc.readMultipleAck
  rw [apdu_readMultipleAck]
  have he : (Enc.new.write [0x30, invoke, 14]).err = none := rfl
  rcases objectsWithData_bad os p h _ he with ⟨ha, hw⟩ | ⟨ha, e', hw, hx⟩
  · refine ⟨fun _ => ?_, fun hn => absurd ha hn⟩
    simp only [hw]; rfl
  · refine ⟨fun hn => absurd hn ha, fun _ => ⟨e', ?_⟩⟩
    simp only [hw]
    simp only [Outcome.ok_bind, Outcome.pure_eq, hx]

/-- A number, then a character string: refused, though a nil follows. -/
example : ∃ e, Enc.new.readMultipleAck 4 [{ id := ⟨0, 1⟩, properties :=
      [⟨85, arrayAll, .one (.uint 7), 0⟩, ⟨77, arrayAll, .one (.str [65]), 0⟩] },
    { id := ⟨0, 2⟩, properties := [⟨85, arrayAll, .one .nil, 0⟩] }]
    = .ok (e, some .binaryInvalidType) :=
  (C35_refused 4 _ ⟨77, arrayAll, .one (.str [65]), 0⟩ rfl).2 (by simp [C35_absent])

/-! ## C75: a source network of zero -/

theorem parses_npdu_source (v : UInt8) (net : UInt16) (len : UInt8) (adr : List UInt8)
    (hl : len.toNat = adr.length) :
    Parses Dec.npdu ([v, 8] ++ (be16 net ++ ([len] ++ adr)))
      ({ version := v, source := some { net := net, len := len, adr := adr } }, none, none) := by
  show Parses Dec.npdu ([v] ++ ([8] ++ (be16 net ++ ([len] ++ adr)))) _
  unfold Dec.npdu
  refine Parses.bind (Dec.parses_u8 v) ?_
  refine Parses.bind (Dec.parses_u8 8) ?_
  rw [show checkMask 8 0x20 = false from by decide, show checkMask 8 0x08 = true from by decide,
    show checkMask 8 0x80 = false from by decide]
  refine Parses.bind0 (a := none) (fun _ _ => rfl) (Parses.bind' (a := some _)
    (Parses.bind' (Dec.parses_address net adr len hl) (Parses.pure _))
    (Parses.bind0 (a := 0) (fun _ _ => rfl) ?_))
  simp only [Bool.false_eq_true, if_false]
  exact Parses.bind' Dec.parses_error (Parses.pure _)

/-- C75, source network zero: the standard has no network of that number, and the
library keeps the network number of the sender; the hardware address is still taken
over, with the length of the sender. -/
theorem C75_zero (src : Address) (pending : UInt8 → Bool) (v len : UInt8) (adr : List UInt8)
    (hl : len.toNat = adr.length) (f : UInt8) (hf : f = 10 ∨ f = 11) (i : IAm) (hi : C04_Valid i.id) :
    handleMsg src pending (Spec.frame f ([v, 8, 0, 0, len] ++ adr ++ Spec.iAm i.id.typ.toNat i.id.inst.toNat
        i.maxApdu.toNat i.segmentation.toNat i.vendor.toNat)) =
      ([.publish i.id.inst.toNat (.iam { i with addr :=
          { src with adr := if adr = [] then src.adr else adr } })], .ok ()) := by
  obtain ⟨body, d', _, hbody, hdec⟩ := C23_iam i hi
  rw [← hbody]
  have hhdr : ([v, 8, 0, 0, len] ++ adr : List UInt8) = [v, 8] ++ (be16 0 ++ ([len] ++ adr)) := by
    simp [be16]
  rw [hhdr]
  obtain ⟨l, hl'⟩ := frame_octets f ([v, 8] ++ (be16 0 ++ ([len] ++ adr)) ++ (Spec.unconfirmedHeader 0 ++ body))
  rw [hl']
  obtain ⟨p, hp⟩ := handleMsg_frame src pending 0x81 f l
    ([v, 8] ++ (be16 0 ++ ([len] ++ adr)) ++ (Spec.unconfirmedHeader 0 ++ body)) hf
  rw [hp]
  obtain ⟨a, d, ha, h1, h2, h3⟩ := Dec.apdu_unconfirmed_run 0x10 0 body
    (lastOr p ([v, 8] ++ (be16 0 ++ ([len] ++ adr)))) (by decide)
  have := networkMsg_of src pending ([v, 8] ++ (be16 0 ++ ([len] ++ adr))) ([0x10, 0] ++ body) _
    (parses_npdu_source v 0 len adr hl) rfl ha
  rw [show Spec.unconfirmedHeader 0 ++ body = [0x10, 0] ++ body from rfl, this]
  simp only [Option.isSome_none, Bool.false_eq_true, if_false, apduEffects, h1, h2, h3, if_true, hdec,
    iamAddress]
  cases adr with
  | nil => rfl
  | cons x xs => rfl

/-- Sender on network 5; the header says network 0, station 9. -/
example : handleMsg { net := 5 } (fun _ => false) (Spec.frame 11 ([1, 8, 0, 0, 1, 9] ++ Spec.iAm 8 1234 480 3 15))
    = ([.publish 1234 (.iam { id := ⟨8, 1234⟩, maxApdu := 480, segmentation := 3, vendor := 15, addr := { net := 5, adr := [9] } })], .ok ()) := by
  decide +kernel

/-! ## C39: a forwarded frame too short for a network header -/

/-- C39, too short: a frame of any of the three functions with fewer than two octets
of network layer is dropped: no effect and no crash. -/
theorem C39_short (src : Address) (pending : UInt8 → Bool) (t f : UInt8) (l : UInt16)
    (hf : f = 11 ∨ f = 10 ∨ f = 4) (payload : List UInt8) (hp : payload.length < 2) :
    handleMsg src pending ([t, f] ++ be16 l ++ payload) = ([], .ok ()) := by
  obtain ⟨p, h⟩ := handleMsg_run src pending t f l payload hf
  rw [h]
  match payload, hp with
  | [], _ =>
    have hn : Dec.npdu ⟨[], p, none⟩ = .ok (({}, none, some .eof), ⟨[], none, some .eof⟩) := by
      with_unfolding_all rfl
    unfold networkMsg
    rw [hn]
    simp [endedFor]
  | [x], _ =>
    have hn : Dec.npdu ⟨[x], p, none⟩ = .ok (({ version := x }, none, some .eof), ⟨[], none, some .eof⟩) := by
      with_unfolding_all rfl
    unfold networkMsg
    rw [hn]
    simp [endedFor]

example : handleMsg {} (fun _ => true) [0x81, 4, 0, 5, 1] = ([], .ok ()) := by decide +kernel

/-! ## C84: components of context tag 16 -/

/-- C84, context tag 16: the only components whose contents are skipped, whatever the property and the contents
(up to four octets), also at the very end of the input; no value is added. -/
theorem C84_skipped (fuel : Nat) (typ : UInt32) (obj : Object) (acc : RpmAcc) (contents rest : List UInt8)
    (h : contents.length ≤ 4) (prev : Option UInt8) :
    ∃ prev', Dec.rpmElement fuel typ obj 16 (UInt8.ofNat (0xF8 + contents.length)) acc ⟨contents ++ rest, prev, none⟩ =
      .ok (({ acc with objects := acc.objects ++ [obj] }, none), ⟨rest, prev', none⟩) := by
  have ht : tagTypeInContext typ 16 = 16 := by
    unfold tagTypeInContext
    split <;> rfl
  have key : ∀ (n : UInt8) (v : UInt32) (l : List UInt8), isContextSpecific n = true → isClosing n = false → isOpening n = false →
      (∀ d, Dec.value n d = .ok (v, d)) → 0 < v → l.length = v.toNat → ∃ prev',
        Dec.rpmElement fuel typ obj 16 n acc ⟨l ++ rest, prev, none⟩ =
          .ok (({ acc with objects := acc.objects ++ [obj] }, none), ⟨rest, prev', none⟩) := by
    intro n v l h1 h2 h3 h4 h5 h6
    refine ⟨l.getLast?, ?_⟩
    have hne : l ++ rest ≠ [] := by
      intro hc
      rw [(List.append_eq_nil_iff.1 hc).1] at h6
      have : 0 < v.toNat := h5
      simp at h6
      omega
    unfold Dec.rpmElement
    rw [if_pos h1, if_neg (by rw [h2]; decide), if_neg (by rw [h3]; decide)]
    dsimp only
    rw [ht, D.run_bind (h4 _), if_pos rfl, if_pos h5]
    have hr : Dec.rawReadErr v.toNat ⟨l ++ rest, prev, none⟩ = .ok (none, ⟨rest, l.getLast?, none⟩) := by
      unfold Dec.rawReadErr
      rw [if_neg hne, ← h6]
      simp
    rw [D.run_bind hr]
    rfl
  match contents, h with
  | [], _ =>
    refine ⟨prev, ?_⟩
    unfold Dec.rpmElement
    rw [ht]
    with_unfolding_all rfl
  | [a], _ => exact key 0xF9 1 [a] rfl rfl rfl (fun _ => by with_unfolding_all rfl) (by decide) rfl
  | [a, b], _ => exact key 0xFA 2 [a, b] rfl rfl rfl (fun _ => by with_unfolding_all rfl) (by decide) rfl
  | [a, b, c], _ => exact key 0xFB 3 [a, b, c] rfl rfl rfl (fun _ => by with_unfolding_all rfl) (by decide) rfl
  | [a, b, c, d], _ => exact key 0xFC 4 [a, b, c, d] rfl rfl rfl (fun _ => by with_unfolding_all rfl) (by decide) rfl

example : Dec.rpmElement 9 85 {} 16 0xF8 ⟨[], []⟩ ⟨[], none, none⟩ = .ok ((⟨[], [{}]⟩, none), ⟨[], none, none⟩) ∧
    Dec.rpmElement 9 85 {} 16 0xFA ⟨[], []⟩ ⟨[7, 8, 9], none, none⟩ = .ok ((⟨[], [{}]⟩, none), ⟨[9], some 8, none⟩) := by
  decide +kernel

end Bac.Props
