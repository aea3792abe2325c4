import Verif.Props.Services
/-!
# C29 - C32: write requests and the multiple-property requests
-/

namespace Bac.Props

open Spec (AppVal Means)

/-! ## C29 WriteProperty layout -/

/-- Present-value of a binary output (4) or binary value (5). -/
def IsBinaryPresentValue (o : Object) (p : Property) : Prop :=
  (o.id.typ.toNat = 4 ∨ o.id.typ.toNat = 5) ∧ p.typ.toNat = 85

/-- The Go value `data` stands for the BACnet value `v` "in its own type".  Left
out: float64 (C06), int32 (C05) and the types that are refused (C07). -/
def OwnType (data : Value) (v : AppVal) : Prop :=
  ∃ s, data = .one s ∧ Means s v ∧ v.WF ∧
    match v with
    | .null | .bool _ | .unsigned _ | .real _ | .chars _ | .objId .. => True
    | .enum _ => ∃ x, s = .enum x
    | _ => False

theorem ownType_encoding {data : Value} {v : AppVal} (h : OwnType data v) :
    Enc.new.appData data false = .ok (none, ⟨v.encoding, none⟩) := by
  obtain ⟨s, rfl, h1, h2, h3⟩ := h
  exact C06_conforming_encoding s v h1 h2 (by cases v <;> exact h3)

/-- `v` is what has to be written when the caller passes property `p` of `o`:
for a binary present-value null or an enumerated, else the value in its own type. -/
def C29_Meant (o : Object) (p : Property) (v : AppVal) : Prop :=
  (IsBinaryPresentValue o p ∧ ((p.data = .one .null ∧ v = .null) ∨
    ∃ x : UInt32, p.data = .one (.uint x) ∧ v = .enum x.toNat)) ∨
  (¬ IsBinaryPresentValue o p ∧ OwnType p.data v)

theorem pointType_iff (o : Object) (p : Property) (more : List Property)
    (hp : o.properties = p :: more) : pointTypeBOBV o = true ↔ IsBinaryPresentValue o p := by
  unfold pointTypeBOBV IsBinaryPresentValue
  rw [hp]
  simp only [decide_eq_true_eq]
  have e4 : o.id.typ = 4 ↔ o.id.typ.toNat = 4 := UInt16.toNat_inj.symm
  have e5 : o.id.typ = 5 ↔ o.id.typ.toNat = 5 := UInt16.toNat_inj.symm
  have e85 : p.typ = 85 ↔ p.typ.toNat = 85 := UInt32.toNat_inj.symm
  rw [e4, e5, e85, or_comm]

theorem meant_encoding (o : Object) (p : Property) (more : List Property) (v : AppVal)
    (hp : o.properties = p :: more) (h : C29_Meant o p v) :
    Enc.new.appData p.data (pointTypeBOBV o) = .ok (none, ⟨v.encoding, none⟩) := by
  rcases h with ⟨hb, h⟩ | ⟨hb, h⟩
  · rw [(pointType_iff o p more hp).mpr hb]
    rcases h with ⟨h1, rfl⟩ | ⟨x, h1, rfl⟩
    · rw [h1, Enc.appData_null, Enc.new_write]
    · rw [h1, Enc.appData_uint_enum, Enc.new_write]
  · have : pointTypeBOBV o = false := by
      rw [← Bool.not_eq_true]; exact fun hc => hb ((pointType_iff o p more hp).mp hc)
    rw [this]
    exact ownType_encoding h

theorem optPriority_eq (e : Enc) (tag p : UInt8) :
    e.optPriority tag p = e.write (if p.toNat = 0 then [] else Spec.ctxUnsigned tag.toNat p.toNat) := by
  unfold Enc.optPriority
  by_cases h : p = 0
  · subst h; simp
  · have : p.toNat ≠ 0 := fun hc => h (UInt8.toNat_inj.mp hc)
    rw [if_pos h, if_neg this, Enc.contextUnsigned_eq]
    simp

/-- C29.  The WriteProperty request is exactly the octets of the standard.
Missing: float64 and int32 values (see C05, C06). -/
theorem C29_layout_partial (invoke : UInt8) (data : PropertyData) (p : Property)
    (more : List Property) (v : AppVal) (hid : C04_Valid data.object.id)
    (hp : data.object.properties = p :: more) (hpt : p.typ.toNat ≤ 4194303)
    (hv : C29_Meant data.object p v) :
    Enc.new.writeProperty invoke data = .ok (⟨Spec.writeProperty invoke data.object.id.typ.toNat
      data.object.id.inst.toNat p.ref v.encoding
      (if p.priority.toNat = 0 then none else some p.priority.toNat), none⟩, none) := by
  unfold Enc.writeProperty
  have ha := meant_encoding data.object p more v hp hv
  simp only [Enc.apdu_request, Enc.readPropertyHeader_ok _ _ p more hid hp hpt, Outcome.ok_bind,
    hp, Enc.write_write, Option.isSome_none, Bool.false_eq_true, if_false, Enc.tagNum_open,
    Enc.appData'_any ha, Enc.tagNum_close, optPriority_eq, Enc.new_write, Outcome.pure_eq,
    Spec.writeProperty, List.append_assoc]
  have e4 : (3 + 1 : UInt8).toNat = 4 := rfl
  rw [e4]
  by_cases h : p.priority.toNat = 0 <;> simp [h, Enc.write]

/-- BinaryOutput 7, present-value, "active" (uint32 1), priority 8. -/
example : C29_Meant { id := ⟨4, 7⟩ } { typ := 85, data := .one (.uint 1) } (.enum 1) ∧
    Enc.new.writeProperty 3 { object := { id := ⟨4, 7⟩, properties :=
      [⟨85, arrayAll, .one (.uint 1), 8⟩] } }
    = .ok (⟨[0, 5, 3, 15, 0x0C, 1, 0, 0, 7, 0x19, 85, 0x3E, 0x91, 1, 0x3F, 0x49, 8], none⟩, none) :=
  ⟨Or.inl ⟨⟨Or.inl (by decide), by decide⟩, Or.inr ⟨1, rfl, rfl⟩⟩, by decide +kernel⟩

example : C29_Meant { id := ⟨1, 7⟩ } { typ := 85, data := .one (.real 0x42290000) }
    (.real 0x42290000) :=
  Or.inr ⟨fun h => by rcases h.1 with h | h <;> revert h <;> decide, _, rfl, rfl, trivial, trivial⟩

/-! ## C30 WriteProperty and crashes -/

/-- The calls that crash: no property given for a valid object type, or a binary
present-value with something else than null or a uint32. -/
def C30_Crash (o : Object) : Prop :=
  (o.id.typ.toNat ≤ 1023 ∧ o.properties = []) ∨
  ∃ p more, o.properties = p :: more ∧ IsBinaryPresentValue o p ∧ p.data ≠ .one .null ∧
    ∀ x, p.data ≠ .one (.uint x)

/-- C30 fails, exactly on `C30_Crash`: there the process panics, otherwise bytes or
an error are returned. -/
theorem C30_crash_iff (invoke : UInt8) (data : PropertyData) :
    ((Enc.new.writeProperty invoke data).Panics ↔ C30_Crash data.object) ∧
    (¬ C30_Crash data.object → (Enc.new.writeProperty invoke data).Returns) := by
  suffices h : (C30_Crash data.object ∧ (Enc.new.writeProperty invoke data).Panics) ∨
      (¬ C30_Crash data.object ∧ (Enc.new.writeProperty invoke data).Returns) by
    rcases h with ⟨h1, h2⟩ | ⟨h1, h2⟩
    · exact ⟨⟨fun _ => h1, fun _ => h2⟩, fun h => absurd h1 h⟩
    · refine ⟨⟨fun h => ?_, fun h => absurd h h1⟩, fun _ => h2⟩
      cases hr : Enc.new.writeProperty invoke data <;> rw [hr] at h h2 <;>
        simp_all [Outcome.Panics, Outcome.Returns]
  unfold Enc.writeProperty Enc.readPropertyHeader
  cases ht : isValidObjectType data.object.id.typ with
  | some err =>
    refine Or.inr ⟨?_, trivial⟩
    have hnt : ¬ data.object.id.typ.toNat ≤ 1023 := by
      rw [← validObjectType_none, ht]; simp
    rintro (⟨h, _⟩ | ⟨p, more, _, ⟨h, _⟩, _⟩)
    · exact hnt h
    · omega
  | none =>
    cases hp : data.object.properties with
    | nil => exact Or.inl ⟨Or.inl ⟨(validObjectType_none _).mp ht, hp⟩, trivial⟩
    | cons p more =>
      dsimp only
      cases hv : isValidPropertyType p.typ with
      | some err =>
        refine Or.inr ⟨?_, trivial⟩
        have hnt : ¬ p.typ.toNat ≤ 4194303 := by
          rw [← validPropertyType_none, hv]; simp
        rintro (⟨_, h⟩ | ⟨q, more', hq, ⟨_, h⟩, _⟩)
        · rw [hp] at h; cases h
        · rw [hp] at hq; cases hq; omega
      | none =>
        simp only [Outcome.ok_bind, Option.isSome_none, Bool.false_eq_true, if_false]
        cases hb : pointTypeBOBV data.object with
        | false =>
          refine Or.inr ⟨?_, ?_⟩
          · rintro (⟨_, h⟩ | ⟨q, more', hq, h, _⟩)
            · rw [hp] at h; cases h
            · rw [hp] at hq; cases hq
              rw [(pointType_iff _ _ _ hp).mpr h] at hb; cases hb
          · unfold Enc.appData'
            rcases Enc.appData_cases p.data false with ⟨bs, h⟩ | h | h
            · simp only [h, Outcome.ok_bind]; trivial
            · simp only [h, Outcome.ok_bind]; trivial
            · have := h Enc.new
              revert this
              rcases p.data with s | l
              · cases s <;> simp [Enc.appData, Enc.fail]
              · simp [Enc.appData, Enc.fail]
        | true =>
          have hbp := (pointType_iff _ _ _ hp).mp hb
          by_cases hgood : p.data = .one .null ∨ ∃ x, p.data = .one (.uint x)
          · refine Or.inr ⟨?_, ?_⟩
            · rintro (⟨_, h⟩ | ⟨q, more', hq, _, h1, h2⟩)
              · rw [hp] at h; cases h
              · rw [hp] at hq; cases hq
                rcases hgood with h | ⟨x, h⟩
                · exact h1 h
                · exact h2 x h
            · unfold Enc.appData'
              rcases hgood with h | ⟨x, h⟩
              · rw [h]; simp only [Enc.appData_null, Outcome.ok_bind]; trivial
              · rw [h]; simp only [Enc.appData_uint_enum, Outcome.ok_bind]; trivial
          · rw [not_or, not_exists] at hgood
            refine Or.inl ⟨Or.inr ⟨p, more, hp, hbp, hgood⟩, ?_⟩
            unfold Enc.appData'
            rcases hd : p.data with s | l
            · cases s
              case null => exact absurd hd hgood.1
              case uint x => exact absurd hd (hgood.2 x)
              all_goals trivial
            · trivial

/-- Writing 1.0 (float32) to the present-value of BinaryValue 1 crashes. -/
theorem C30_fails : ∃ data, C30_Crash data.object ∧
    Enc.new.writeProperty 0 data = .panic .typeAssertion :=
  ⟨{ object := { id := ⟨5, 1⟩, properties := [⟨85, arrayAll, .one (.real 0x3F800000), 0⟩] } },
    Or.inr ⟨_, _, rfl, ⟨Or.inr rfl, rfl⟩, by decide, by intro x; simp⟩, by decide +kernel⟩

/-- Not crashing: the same value written to an analog value. -/
example : ¬ C30_Crash { id := ⟨2, 1⟩, properties := [⟨85, arrayAll, .one (.real 0x3F800000), 0⟩] } := by
  rintro (⟨_, h⟩ | ⟨p, more, _, ⟨h, _⟩, _⟩)
  · cases h
  · rcases h with h | h <;> revert h <;> decide

theorem flatMap_congr' {α β : Type} {f g : α → List β} {l : List α} (h : ∀ a ∈ l, f a = g a) :
    l.flatMap f = l.flatMap g := by
  induction l with
  | nil => rfl
  | cons a l ih =>
    rw [List.flatMap_cons, List.flatMap_cons, h a (by simp), ih fun b hb => h b (by simp [hb])]

/-! ## C31 ReadPropertyMultiple layout -/

theorem properties_read (ps : List Property) : ∀ e : Enc, e.properties false ps
    = .ok (e.write (ps.flatMap fun p => p.ref.octets 0 1)) := by
  induction ps with
  | nil => intro e; simp [Enc.properties]
  | cons p ps ih =>
    intro e
    unfold Enc.properties Enc.propertyValue
    simp only [Enc.propRef_eq, Bool.false_eq_true, if_false, Outcome.ok_bind, ih, Enc.write_write,
      List.flatMap_cons]
    rfl

/-- The read access specification a Go object stands for. -/
def readSpecOf (o : Object) : Spec.ReadSpec :=
  ⟨o.id.typ.toNat, o.id.inst.toNat, o.properties.map Property.ref⟩

theorem objects_read (os : List Object) : (∀ o ∈ os, C04_Valid o.id) → ∀ e : Enc,
    e.objects false os = .ok (e.write ((os.map readSpecOf).flatMap Spec.ReadSpec.octets)) := by
  induction os with
  | nil => intro _ e; simp [Enc.objects]
  | cons o os ih =>
    intro h e
    have ho := h o (by simp)
    unfold Enc.objects
    simp only [Enc.contextObjectID_eq, Nat.mod_eq_of_lt ho.1, Nat.mod_eq_of_lt ho.2,
      Enc.tagNum_open, Enc.tagNum_close, properties_read, Outcome.ok_bind, Enc.write_write,
      ih (fun o' h' => h o' (by simp [h'])), List.map_cons, List.flatMap_cons, readSpecOf,
      Spec.ReadSpec.octets, List.flatMap_map, List.append_assoc]
    rfl

/-- C31.  The request for any list of valid objects with any property lists is
exactly the octets of the standard, in order. -/
theorem C31_layout (invoke : UInt8) (os : List Object) (h : ∀ o ∈ os, C04_Valid o.id) :
    Enc.new.readMultiple invoke os
      = .ok (⟨Spec.readMultiple invoke (os.map readSpecOf), none⟩, none) := by
  unfold Enc.readMultiple
  simp only [Enc.apdu_request, objects_read os h, Outcome.ok_bind, Enc.write_write, Enc.new_write]
  rfl

example : (∀ o ∈ [({ id := ⟨0, 16⟩, properties := [⟨85, arrayAll, .one .nil, 0⟩, ⟨87, 3, .one .nil, 0⟩] }
      : Object), { id := ⟨8, 1⟩, properties := [] }], C04_Valid o.id) ∧
    Enc.new.readMultiple 1 [{ id := ⟨0, 16⟩, properties := [⟨85, arrayAll, .one .nil, 0⟩,
      ⟨87, 3, .one .nil, 0⟩] }, { id := ⟨8, 1⟩, properties := [] }]
    = .ok (⟨[0, 5, 1, 14, 0x0C, 0, 0, 0, 16, 0x1E, 0x09, 85, 0x09, 87, 0x19, 3, 0x1F,
        0x0C, 2, 0, 0, 1, 0x1E, 0x1F], none⟩, none) := by
  refine ⟨?_, by decide +kernel⟩
  intro o ho
  simp only [List.mem_cons, List.not_mem_nil, or_false] at ho
  rcases ho with rfl | rfl <;> exact ⟨by decide, by decide⟩

/-! ## C32 WritePropertyMultiple layout -/

/-- One property as the library writes it: like the standard, but the priority
under `prioTag`. -/
def writtenProp (prioTag : Nat) (val : Property → AppVal) (p : Property) : List UInt8 :=
  p.ref.octets 0 1 ++ (Spec.openTag 2 ++ ((val p).encoding ++ (Spec.closeTag 2 ++
    (if p.priority.toNat = 0 then [] else Spec.ctxUnsigned prioTag p.priority.toNat))))

/-- One object as the library writes it. -/
def writtenObject (prioTag : Nat) (val : Property → AppVal) (o : Object) : List UInt8 :=
  Spec.ctxObjectId 0 o.id.typ.toNat o.id.inst.toNat ++ (Spec.openTag 1 ++
    (o.properties.flatMap (writtenProp prioTag val) ++ Spec.closeTag 1))

theorem properties_write (val : Property → AppVal) (ps : List Property) :
    (∀ p ∈ ps, OwnType p.data (val p)) → ∀ e : Enc, e.properties true ps
    = .ok (e.write (ps.flatMap (writtenProp 2 val))) := by
  induction ps with
  | nil => intro _ e; simp [Enc.properties]
  | cons p ps ih =>
    intro h e
    unfold Enc.properties Enc.propertyValue
    simp only [Enc.propRef_eq, if_true, Outcome.ok_bind, Enc.tagNum_open, Enc.tagNum_close,
      Enc.appData'_any (ownType_encoding (h p (by simp))), optPriority_eq, Outcome.pure_eq,
      ih (fun q hq => h q (by simp [hq])), Enc.write_write, List.flatMap_cons, writtenProp,
      List.append_assoc]
    rfl

theorem objects_write (val : Property → AppVal) (os : List Object) :
    (∀ o ∈ os, C04_Valid o.id) → (∀ o ∈ os, ∀ p ∈ o.properties, OwnType p.data (val p)) →
    ∀ e : Enc, e.objects true os = .ok (e.write (os.flatMap (writtenObject 2 val))) := by
  induction os with
  | nil => intro _ _ e; simp [Enc.objects]
  | cons o os ih =>
    intro h hv e
    have ho := h o (by simp)
    unfold Enc.objects
    simp only [Enc.contextObjectID_eq, Nat.mod_eq_of_lt ho.1, Nat.mod_eq_of_lt ho.2,
      Enc.tagNum_open, Enc.tagNum_close, properties_write val _ (hv o (by simp)), Outcome.ok_bind,
      Enc.write_write, ih (fun o' h' => h o' (by simp [h'])) (fun o' h' => hv o' (by simp [h'])),
      List.flatMap_cons, writtenObject, List.append_assoc]
    rfl

/-- The write access specification a Go object stands for. -/
def writeSpecOf (val : Property → AppVal) (o : Object) : Spec.WriteSpec :=
  ⟨o.id.typ.toNat, o.id.inst.toNat, o.properties.map fun p => ⟨p.ref, (val p).encoding,
    if p.priority.toNat = 0 then none else some p.priority.toNat⟩⟩

theorem writtenObject_spec (val : Property → AppVal) (o : Object) :
    writtenObject 3 val o = (writeSpecOf val o).octets := by
  unfold writtenObject writeSpecOf Spec.WriteSpec.octets
  simp only [List.flatMap_map, List.append_assoc]
  congr 3
  refine flatMap_congr' fun p _ => ?_
  unfold writtenProp Spec.PropVal.octets
  by_cases h : p.priority.toNat = 0 <;> simp [h]

/-- C32 for writes without priority, any number of objects, properties and values.
Missing: writes with a priority (`C32_fails`), float64 and int32 values. -/
theorem C32_layout_partial (invoke : UInt8) (val : Property → AppVal) (os : List Object)
    (h : ∀ o ∈ os, C04_Valid o.id) (hv : ∀ o ∈ os, ∀ p ∈ o.properties, OwnType p.data (val p))
    (h0 : ∀ o ∈ os, ∀ p ∈ o.properties, p.priority = 0) :
    Enc.new.writeMultiple invoke os
      = .ok (⟨Spec.writeMultiple invoke (os.map (writeSpecOf val)), none⟩, none) := by
  unfold Enc.writeMultiple
  simp only [Enc.apdu_request, objects_write val os h hv, Outcome.ok_bind, Enc.write_write,
    Enc.new_write, Outcome.pure_eq, Spec.writeMultiple, List.flatMap_map]
  have : os.flatMap (writtenObject 2 val) = os.flatMap fun o => (writeSpecOf val o).octets := by
    refine flatMap_congr' fun o ho => ?_
    rw [← writtenObject_spec]
    unfold writtenObject
    congr 3
    refine flatMap_congr' fun p hp => ?_
    unfold writtenProp
    rw [h0 o ho p hp]
    rfl
  rw [this]
  rfl

/-- C32 fails for every write with a priority: it goes out under context tag 2
where the standard demands 3. -/
theorem C32_fails (invoke : UInt8) (val : Property → AppVal) (id : ObjectID) (p : Property)
    (h : C04_Valid id) (hv : OwnType p.data (val p)) (hpr : p.priority ≠ 0) :
    ∃ pre, Enc.new.writeMultiple invoke [{ id := id, properties := [p] }]
        = .ok (⟨pre ++ [0x29, p.priority, 0x1F], none⟩, none) ∧
      Spec.writeMultiple invoke [writeSpecOf val { id := id, properties := [p] }]
        = pre ++ [0x39, p.priority, 0x1F] := by
  have hn : p.priority.toNat ≠ 0 := fun hc => hpr (UInt8.toNat_inj.mp hc)
  have hc : ∀ t, t ≤ 14 → Spec.ctxUnsigned t p.priority.toNat
      = [UInt8.ofNat (t * 16 + 9), p.priority] := by
    intro t ht
    have h1 : Spec.minOctets p.priority.toNat = 1 := by
      unfold Spec.minOctets
      rw [if_pos (UInt8.toNat_lt _)]
    have h2 : Spec.unsignedOctets p.priority.toNat = [p.priority] := by
      unfold Spec.unsignedOctets
      rw [h1]
      simp [Spec.bigEndian]
    unfold Spec.ctxUnsigned
    rw [h1, h2]
    have : ∀ t : Fin 15, Spec.tagHeader t.val true 1 = [UInt8.ofNat (t.val * 16 + 9)] := by
      decide +kernel
    rw [this ⟨t, by omega⟩]
    rfl
  refine ⟨Spec.request invoke 16 ++ (Spec.ctxObjectId 0 id.typ.toNat id.inst.toNat ++
    (Spec.openTag 1 ++ (p.ref.octets 0 1 ++ (Spec.openTag 2 ++ ((val p).encoding ++
      Spec.closeTag 2))))), ?_, ?_⟩
  · unfold Enc.writeMultiple
    simp only [Enc.apdu_request, objects_write val [{ id := id, properties := [p] }]
      (by simpa using h) (by simpa using hv), Outcome.ok_bind, Enc.write_write,
      Enc.new_write, Outcome.pure_eq, List.flatMap_cons, List.flatMap_nil, writtenObject,
      writtenProp, if_neg hn, hc 2 (by decide), List.append_assoc, List.append_nil]
    rfl
  · unfold Spec.writeMultiple
    simp only [List.flatMap_cons, List.flatMap_nil, ← writtenObject_spec, writtenObject,
      writtenProp, if_neg hn, hc 3 (by decide), List.append_assoc, List.append_nil]
    rfl

/-- AnalogValue 5, present-value := 67.0 with priority 8: octet 0x29 instead of 0x39. -/
example : OwnType (.one (.real 0x42860000)) (.real 0x42860000) ∧
    Enc.new.writeMultiple 1 [{ id := ⟨2, 5⟩, properties := [⟨85, arrayAll, .one (.real 0x42860000), 8⟩] }]
    = .ok (⟨[0, 5, 1, 16, 0x0C, 0, 0x80, 0, 5, 0x1E, 0x09, 85, 0x2E, 0x44, 0x42, 0x86, 0, 0, 0x2F,
        0x29, 8, 0x1F], none⟩, none) :=
  ⟨⟨_, rfl, rfl, trivial, trivial⟩, by decide +kernel⟩

end Bac.Props
